import Verif.Model.Deflectometry
import Mathlib.Tactic.Linarith
import Mathlib.Tactic.SplitIfs
/-! Helper lemmas for C79. -/
namespace Artist.Deflectometry
open Artist
variable {V : Type}

theorem assignRows_ok (rows : List V) : ∀ (done : List (Option V)) (n : Nat), rows.length ≤ n →
    assignRows (done ++ List.replicate n none) done.length rows = .ok (done ++ (rows.map some ++ List.replicate (n - rows.length) none)) := by
  induction rows with
  | nil => intro done n _; simp [assignRows]
  | cons r rows ih =>
    intro done n h
    obtain ⟨n, rfl⟩ : ∃ m, n = m + 1 := ⟨n - 1, by simp at h; omega⟩
    have e : (done ++ List.replicate (n + 1) none).set done.length (some r) = (done ++ [some r]) ++ List.replicate n none := by
      rw [List.set_append_right _ _ (le_refl _), Nat.sub_self, List.replicate_succ, List.set_cons_zero]
      simp
    rw [assignRows, if_pos (by simp), e]
    have := ih (done ++ [some r]) n (by simpa using h)
    rw [List.length_append, List.length_singleton] at this
    rw [this]
    simp

theorem assignRows_error (rows : List V) : ∀ (tensor : List (Option V)) (i : Nat), tensor.length - i < rows.length → i ≤ tensor.length →
    assignRows tensor i rows = .error .indexError := by
  induction rows with
  | nil => intro t i h; simp at h
  | cons r rows ih =>
    intro t i h hi
    rw [assignRows]
    split_ifs with h1
    · exact ih _ _ (by simp at h ⊢; omega) (by simp; omega)
    · rfl

theorem extractFacet_ok (m : Measured V) (h : m.normals.length ≤ m.points.length) :
    extractFacet m = .ok (m.points.map some, m.normals.map some ++ List.replicate (m.points.length - m.normals.length) none) := by
  have h1 := assignRows_ok m.points [] m.points.length (le_refl _)
  have h2 := assignRows_ok m.normals [] m.points.length h
  simp only [List.nil_append, List.length_nil, Nat.sub_self, List.replicate_zero, List.append_nil] at h1 h2
  unfold extractFacet
  simp only [h1, h2]

theorem extractFacet_error (m : Measured V) (h : m.points.length < m.normals.length) : extractFacet m = .error .indexError := by
  have h1 := assignRows_ok m.points [] m.points.length (le_refl _)
  have h2 := assignRows_error m.normals (List.replicate m.points.length none) 0 (by simpa using h) (by simp)
  simp only [List.nil_append, List.length_nil, Nat.sub_self, List.replicate_zero, List.append_nil] at h1
  unfold extractFacet
  simp only [h1, h2]

theorem extractFrom_ok (pre : String) (file : List (String × Measured V)) (g : Measured V → List (Option V) × List (Option V)) (facets : List (Measured V)) :
    ∀ f, (∀ (i : Nat) (m : Measured V), facets[i]? = some m → dictGet file (pre ++ toString (f + i + 1)) = some m ∧ extractFacet m = .ok (g m)) →
      extractFrom pre file f facets.length = .ok (facets.map g) := by
  induction facets with
  | nil => intro f _; rfl
  | cons m ms ih =>
    intro f h
    obtain ⟨h1, h2⟩ := h 0 m rfl
    rw [List.length_cons, extractFrom]
    simp only [Nat.add_zero] at h1
    rw [h1]
    simp only [h2]
    rw [ih (f + 1) (fun i m' hi => by
      have := h (i + 1) m' (by simpa using hi)
      rwa [show f + (i + 1) + 1 = f + 1 + i + 1 by omega] at this)]
    rfl

theorem extractFrom_fails (pre : String) (file : List (String × Measured V)) (n : Nat) :
    ∀ f i m, i < n → dictGet file (pre ++ toString (f + i + 1)) = some m → m.points.length < m.normals.length →
      ∃ e, extractFrom pre file f n = .error e := by
  induction n with
  | zero => intro f i m hi; omega
  | succ n ih =>
    intro f i m hi hm hl
    rw [extractFrom]
    cases hd : dictGet file (pre ++ toString (f + 1)) with
    | none => exact ⟨_, rfl⟩
    | some m' =>
      simp only
      cases hx : extractFacet m' with
      | error e => exact ⟨_, rfl⟩
      | ok x =>
        simp only
        cases i with
        | zero =>
          rw [Nat.add_zero, hd] at hm
          cases hm
          rw [extractFacet_error m hl] at hx
          cases hx
        | succ i =>
          obtain ⟨e, he⟩ := ih (f + 1) i m (by omega) (by rwa [show f + 1 + i + 1 = f + (i + 1) + 1 by omega]) hl
          rw [he]
          exact ⟨_, rfl⟩

theorem foldl_min (ns : List Nat) : ∀ n, ns.foldl min n ≤ n ∧ (∀ x ∈ ns, ns.foldl min n ≤ x) ∧ (ns.foldl min n = n ∨ ns.foldl min n ∈ ns) := by
  induction ns with
  | nil => intro n; simp
  | cons k ns ih =>
    intro n
    obtain ⟨h1, h2, h3⟩ := ih (min n k)
    simp only [List.foldl_cons]
    refine ⟨by omega, ?_, ?_⟩
    · intro x hx
      rcases List.mem_cons.1 hx with rfl | hx
      · omega
      · exact h2 x hx
    · rcases h3 with h3 | h3
      · rcases Nat.le_total n k with h | h
        · left; rw [h3]; omega
        · right; rw [h3, Nat.min_eq_right h]; simp
      · right; simp [h3]

theorem minimum_ok (l : List Nat) (h : l ≠ []) : ∃ n, minimum l = .ok n ∧ n ∈ l ∧ ∀ x ∈ l, n ≤ x := by
  cases l with
  | nil => exact absurd rfl h
  | cons n ns =>
    obtain ⟨h1, h2, h3⟩ := foldl_min ns n
    refine ⟨_, rfl, ?_, ?_⟩
    · rcases h3 with h3 | h3
      · rw [h3]; simp
      · simp [h3]
    · intro x hx
      rcases List.mem_cons.1 hx with rfl | hx
      · exact h1
      · exact h2 x hx

theorem ceil_lt (k l s : Nat) (hs : 0 < s) : k < (l + s - 1) / s ↔ k * s < l := by
  rw [Nat.lt_iff_add_one_le, Nat.le_div_iff_mul_le hs, Nat.succ_mul]
  omega

theorem everyNth_eq {α : Type} (s : Nat) (hs : 0 < s) (l : List α) :
    (everyNth s l).length = (l.length + s - 1) / s ∧ ∀ k, (everyNth s l)[k]? = l[k * s]? := by
  have key : ∀ n, n ≤ (l.length + s - 1) / s → ((List.range n).filterMap (fun k => l[k * s]?)).length = n ∧
      ∀ k, k < n → ((List.range n).filterMap (fun k => l[k * s]?))[k]? = l[k * s]? := by
    intro n
    induction n with
    | zero => intro _; simp
    | succ n ih =>
      intro hn
      obtain ⟨h1, h2⟩ := ih (by omega)
      have hlt : n * s < l.length := (ceil_lt n l.length s hs).1 (by omega)
      have e : ([n]).filterMap (fun k => l[k * s]?) = [l[n * s]] := by
        simp [List.getElem?_eq_getElem hlt]
      rw [List.range_succ, List.filterMap_append, e]
      refine ⟨by simp [h1], fun k hk => ?_⟩
      by_cases hkn : k < n
      · rw [List.getElem?_append_left (by omega), h2 k hkn]
      · have : k = n := by omega
        subst this
        rw [List.getElem?_append_right (by omega), h1, Nat.sub_self, List.getElem?_eq_getElem hlt]
        rfl
  obtain ⟨h1, h2⟩ := key _ (le_refl _)
  refine ⟨h1, fun k => ?_⟩
  by_cases hk : k < (l.length + s - 1) / s
  · exact h2 k hk
  · rw [List.getElem?_eq_none (by rw [everyNth, h1]; omega), List.getElem?_eq_none]
    rw [ceil_lt k l.length s hs] at hk
    omega

end Artist.Deflectometry
