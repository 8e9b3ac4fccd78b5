import Verif.Spec.Shared
import Verif.Props.Collective
import Verif.Props.Schedule
/-!
# C91: processes that share a heliostat group train one common set of parameters
-/
namespace Artist.Shared
open Artist Artist.Collective Artist.Schedule
variable {P O K : Type} [Field K] [LinearOrder K] [IsStrictOrderedRing K]

theorem average_mean (t : Training P O K) (members : List Nat) (shape : List Nat) (x : P) (hs : ∀ r ∈ members, (t.grad r x).map List.length = shape) :
    averageGradients members.length (members.map fun r => (t.grad r x).map some) = .ok (List.replicate members.length (meanGradient t members shape x)) := by
  obtain ⟨out, h1, h2, h3⟩ := C58_reconstruction members shape (fun r => t.grad r x) hs
  unfold groupGradients at h1
  simp only [if_true] at h1
  rw [h1]
  congr 1
  apply List.eq_replicate_iff.2
  refine ⟨h2, fun row hrow => ?_⟩
  obtain ⟨k1, k2⟩ := h3 row hrow
  apply List.ext_getElem?
  intro p
  rcases Nat.lt_or_ge p shape.length with hp | hp
  · obtain ⟨v, v1, v2, v3⟩ := k2 p shape[p] (List.getElem?_eq_getElem hp)
    rw [v1]
    have : (meanGradient t members shape x)[p]? = some (some ((List.range shape[p]).map (meanEntry t members x p))) := by
      simp [meanGradient, hp]
    rw [this]
    congr 2
    apply List.ext_getElem?
    intro i
    rcases Nat.lt_or_ge i shape[p] with hi | hi
    · rw [v3 i hi]
      simp [hi, meanEntry]
    · rw [List.getElem?_eq_none (by omega), List.getElem?_eq_none (by simp; omega)]
  · rw [List.getElem?_eq_none (by omega), List.getElem?_eq_none (by simp [meanGradient]; omega)]

theorem zipWith_replicate {A B C : Type} (f : A → B → C) (as : List A) (b : B) : List.zipWith f as (List.replicate as.length b) = as.map (fun a => f a b) := by
  induction as with
  | nil => rfl
  | cons a as ih => simp [List.replicate_succ, ih]

theorem epoch_common (t : Training P O K) (s : Scheduler K) (members : List Nat) (shape : List Nat) (hs : ∀ r ∈ members, ∀ x, (t.grad r x).map List.length = shape)
    (h : ¬ Watches s ∨ ∀ r ∈ members, ∀ r' ∈ members, ∀ x, t.loss r x = t.loss r' x) (r : Nat) (hr : r ∈ members) (w : Worker P O K) :
    epoch t s members (List.replicate members.length w) = .ok (List.replicate members.length (solo t members shape s r w)) := by
  unfold epoch
  rw [zipWith_replicate, average_mean t members shape w.parameters (fun r hr => hs r hr _)]
  simp only
  congr 1
  have hz : members.zip (List.replicate members.length w) = members.map (fun r => (r, w)) := by
    rw [List.zip, zipWith_replicate]
  rw [hz]
  have hl : (members.map (fun r => (r, w))).length = members.length := by simp
  rw [show members.length = (members.map (fun r => (r, w))).length from hl.symm, zipWith_replicate, List.map_map, hl]
  apply List.eq_replicate_iff.2
  refine ⟨by simp, fun y hy => ?_⟩
  obtain ⟨r', hr', rfl⟩ := List.mem_map.1 hy
  have key : Schedule.step s w.schedule (t.loss r' w.parameters) = Schedule.step s w.schedule (t.loss r w.parameters) := by
    rcases h with h | h
    · cases s with
      | exponential => rfl
      | cyclic => rfl
      | plateau a b c d e => exact absurd ⟨a, b, c, d, e, rfl⟩ h
    · rw [h r' hr' r hr]
  simp only [Function.comp_apply, solo, key]

/-- C91: if the scheduler does not look at the losses (or if the losses of the processes agree), then processes that start with the same parameters, optimizer and scheduler hold the same
ones after any number of epochs: those of a single process that trains with the mean of the gradients.  (The full claim, for all schedulers, is false: `C91_diverge`.) -/
theorem C91_common_partial (t : Training P O K) (s : Scheduler K) (members : List Nat) (shape : List Nat) (hs : ∀ r ∈ members, ∀ x, (t.grad r x).map List.length = shape)
    (h : ¬ Watches s ∨ ∀ r ∈ members, ∀ r' ∈ members, ∀ x, t.loss r x = t.loss r' x) (r : Nat) (hr : r ∈ members) (w : Worker P O K) (n : Nat) :
    epochs t s members n (List.replicate members.length w) = .ok (List.replicate members.length ((solo t members shape s r)^[n] w)) := by
  induction n generalizing w with
  | zero => rfl
  | succ n ih =>
    rw [epochs, epoch_common t s members shape hs h r hr]
    simp only
    rw [ih, Function.iterate_succ_apply]

/-- Gradient descent with a loss of two heliostats, one for each process, with optimum at 0 and at 1. -/
def two : Training ℚ Unit ℚ where
  grad r x := [[2 * (x - r)]]
  loss r x := (x - r) ^ 2
  move rate _ g x := match g with
    | [some [y]] => (x - rate * y, ())
    | _ => (x, ())

/-- C91 is false with `reduce_on_plateau`: from 2 the processes approach the common optimum 1/2; the loss of the second process begins to grow when its own optimum 1 is passed, so only that
process reduces its learning rate, and from then on the processes have different parameters. -/
theorem C91_diverge : ∃ z, Schedule.create (.plateau (1 / 2) 0 0 0 0) (1 / 4 : ℚ) = .ok z ∧
    (∃ a b, epochs two (.plateau (1 / 2) 0 0 0 0) [0, 1] 4 (List.replicate 2 ⟨2, (), z⟩) = .ok [a, b] ∧ a.parameters = b.parameters ∧ a.schedule.rate ≠ b.schedule.rate) ∧
    ∃ a b, epochs two (.plateau (1 / 2) 0 0 0 0) [0, 1] 5 (List.replicate 2 ⟨2, (), z⟩) = .ok [a, b] ∧ a.parameters ≠ b.parameters := by
  have h : ∀ r : Except Failure (List (Worker ℚ Unit ℚ)), ∀ p, (match r with | .ok ws => some (ws.map fun w => (w.parameters, w.schedule.rate)) | .error _ => none) = some p →
      ∀ x y, p = [x, y] → ∃ a b, r = .ok [a, b] ∧ (a.parameters, a.schedule.rate) = x ∧ (b.parameters, b.schedule.rate) = y := by
    intro r p hp x y hxy
    cases r with
    | error e => cases hp
    | ok ws =>
      simp only [Option.some.injEq] at hp
      subst hp
      match ws, hxy with
      | [a, b], hxy =>
        simp only [List.map_cons, List.map_nil, List.cons.injEq, and_true] at hxy
        exact ⟨a, b, rfl, hxy.1, hxy.2⟩
  refine ⟨⟨1 / 4, 0, Fit.newScheduler⟩, by norm_num [Schedule.create], ?_, ?_⟩
  · obtain ⟨a, b, h1, h2, h3⟩ := h (epochs two (.plateau (1 / 2) 0 0 0 0) [0, 1] 4 (List.replicate 2 ⟨2, (), ⟨1 / 4, 0, Fit.newScheduler⟩⟩))
      [(19 / 32, 1 / 4), (19 / 32, 1 / 8)] (by decide +kernel) _ _ rfl
    simp only [Prod.mk.injEq] at h2 h3
    exact ⟨a, b, h1, by rw [h2.1, h3.1], by rw [h2.2, h3.2]; norm_num⟩
  · obtain ⟨a, b, h1, h2, h3⟩ := h (epochs two (.plateau (1 / 2) 0 0 0 0) [0, 1] 5 (List.replicate 2 ⟨2, (), ⟨1 / 4, 0, Fit.newScheduler⟩⟩))
      [(35 / 64, 1 / 4), (73 / 128, 1 / 16)] (by decide +kernel) _ _ rfl
    simp only [Prod.mk.injEq] at h2 h3
    exact ⟨a, b, h1, by rw [h2.1, h3.1]; norm_num⟩

/-- A case for `C91_common_partial`: the same training with an exponential scheduler. -/
example : epochs two (.exponential (9 / 10)) [0, 1] 7 (List.replicate 2 ⟨2, (), ⟨1 / 4, 0, Fit.newScheduler⟩⟩) =
    .ok (List.replicate 2 ((solo two [0, 1] [1] (.exponential (9 / 10)) 0)^[7] ⟨2, (), ⟨1 / 4, 0, Fit.newScheduler⟩⟩)) :=
  C91_common_partial two _ [0, 1] [1] (fun _ _ _ => rfl) (.inl (by rintro ⟨_, _, _, _, _, h⟩; cases h)) 0 (by simp) _ 7

end Artist.Shared
