import Verif.Model.LBVH
import Mathlib.Tactic.SplitIfs
/-! Helper lemmas: once a loop has ended, allowing more passes does not change its result. -/
namespace Artist.LBVH
open Artist Artist.Morton

theorem depthLoop_fuel (left right : List Int) : ∀ (fuel more : Nat) (stack : List (Nat × Nat)) (d : Nat) (r : Except PyErr Nat),
    depthLoop left right fuel stack d = some r → depthLoop left right (fuel + more) stack d = some r := by
  intro fuel
  induction fuel with
  | zero => intro more stack d r h; simp [depthLoop] at h
  | succ fuel ih =>
    intro more stack d r h
    have e : fuel + 1 + more = (fuel + more) + 1 := by omega
    rw [e]
    cases stack with
    | nil => simpa [depthLoop] using h
    | cons x rest =>
      obtain ⟨node, depth⟩ := x
      unfold depthLoop at h ⊢
      split at h
      · exact ih more _ _ r h
      · exact h

theorem traverse_fuel (left right : List Int) (isLeaf : List Bool) (prim : List Int) (hit : Nat → Bool) (owner capacity : Nat) :
    ∀ (fuel more : Nat) (stack found : List Nat) (r : Except PyErr (List Nat)),
    traverse left right isLeaf prim hit owner capacity fuel stack found = some r →
    traverse left right isLeaf prim hit owner capacity (fuel + more) stack found = some r := by
  intro fuel
  induction fuel with
  | zero => intro more stack found r h; simp [traverse] at h
  | succ fuel ih =>
    intro more stack found r h
    have e : fuel + 1 + more = (fuel + more) + 1 := by omega
    rw [e]
    cases stack with
    | nil => simpa [traverse] using h
    | cons node rest =>
      unfold traverse at h ⊢
      by_cases h1 : hit node = true
      · rw [if_pos h1] at h ⊢
        by_cases h2 : isLeaf.getD node false = true
        · rw [if_pos h2] at h ⊢
          exact ih more _ _ r h
        · rw [if_neg h2] at h ⊢
          simp only at h ⊢
          by_cases hc : (decide (0 ≤ left.getD node (-1)) = true ∧ capacity ≤ rest.length) ∨
              (decide (0 ≤ right.getD node (-1)) = true ∧ capacity ≤ rest.length + (if decide (0 ≤ left.getD node (-1)) = true then 1 else 0))
          · rw [if_pos hc] at h ⊢; exact h
          · rw [if_neg hc] at h ⊢; exact ih more _ _ r h
      · rw [if_neg h1] at h ⊢
        exact ih more _ _ r h

variable {K : Type} [Field K] [LinearOrder K]

theorem traverseAll_fuel (hit : Ray K → Box K → Bool) (tree : Tree K) (capacity fuel more : Nat) : ∀ (rays : List (Ray K)) (r : Except PyErr (List Nat)),
    traverseAll hit tree capacity fuel rays = some r → traverseAll hit tree capacity (fuel + more) rays = some r := by
  intro rays
  induction rays with
  | nil => intro r h; simpa [traverseAll] using h
  | cons ray rays ih =>
    intro r h
    unfold traverseAll at h ⊢
    cases ht : traverse tree.left tree.right tree.isLeaf tree.primitiveIndex
        (fun node => hit ray (tree.boxes.getD node zeroBox)) ray.owner capacity fuel [0] [] with
    | none => rw [ht] at h; cases h
    | some x =>
      rw [ht] at h
      rw [traverse_fuel _ _ _ _ _ _ _ fuel more _ _ x ht]
      cases x with
      | error e => exact h
      | ok found =>
        simp only at h ⊢
        cases ha : traverseAll hit tree capacity fuel rays with
        | none => rw [ha] at h; cases h
        | some y => rw [ha] at h; rw [ih y ha]; exact h

theorem filter_fuel (codes : List (BitVec 32)) (boxes : List (Box K)) (rays : List (Ray K)) (fuel more : Nat) (r : Except PyErr (List Nat))
    (h : filterFromCodes codes boxes rays fuel = some r) : filterFromCodes codes boxes rays (fuel + more) = some r := by
  unfold filterFromCodes filterWith at h ⊢
  simp only at h ⊢
  cases hd : maxDepth (buildFromCodes codes boxes).left (buildFromCodes codes boxes).right fuel with
  | none => rw [hd] at h; cases h
  | some x =>
    have hd' : maxDepth (buildFromCodes codes boxes).left (buildFromCodes codes boxes).right (fuel + more) = some x :=
      depthLoop_fuel _ _ fuel more _ _ x hd
    rw [hd] at h
    rw [hd']
    cases x with
    | error e => exact h
    | ok depth =>
      simp only at h ⊢
      cases ha : traverseAll hits (buildFromCodes codes boxes) depth fuel rays with
      | none => rw [ha] at h; cases h
      | some y => rw [ha] at h; rw [traverseAll_fuel _ _ _ fuel more rays y ha]; exact h

end Artist.LBVH
