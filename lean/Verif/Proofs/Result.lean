import Verif.Model.Result
import Verif.Proofs.Loop
import Mathlib.Logic.Function.Iterate
/-! Helper lemmas for C85: the loops with state refine the loops of C34. -/
namespace Artist.Result
open Artist Artist.Training Artist.Loop
variable {K : Type} [Field K] [LinearOrder K] [IsStrictOrderedRing K] {S T : Type}

/-- State at the start of epoch `e`. -/
def at' (p : Process S K T) (s : S) : Nat → S
  | 0 => s
  | e + 1 => p.next (at' p s e)

def lastTest (p : Process S K T) (s : S) (logged : List Nat) : Option T := logged.getLast?.map fun m => p.measure (at' p s (m + 1))

def leftOf (p : Process S K T) (s : S) (out : Outcome K) : Left S K T :=
  ⟨out, at' p s out.steps, lossBefore (fun e => p.lossOf (at' p s e)) out.steps, lastTest p s out.logged⟩

theorem reconstructLoop_refines (p : Process S K T) (o : Options K) (c : Config K) (s : S) (fuel e : Nat) (st : Stopper K) (out : Outcome K) (he : out.steps = e) :
    reconstructLoop p o c fuel e (lossBefore (fun e => p.lossOf (at' p s e)) e) st out (at' p s e) (lastTest p s out.logged) =
      (Loop.reconstructLoop o c (fun e => p.lossOf (at' p s e)) fuel e (lossBefore (fun e => p.lossOf (at' p s e)) e) st out).map (Except.map (leftOf p s)) := by
  induction fuel generalizing e st out with
  | zero => rfl
  | succ fuel ih =>
    subst he
    rw [reconstructLoop, Loop.reconstructLoop]
    split
    · dsimp only
      cases hstep : step c st (p.lossOf (at' p s out.steps)) with
      | error err => rfl
      | ok r =>
        obtain ⟨stop, st'⟩ := r
        dsimp only
        split
        · rfl
        · generalize hlog : (decide (out.steps % effectiveLogStep o = 0) || decide ((out.steps : Int) = (o.maxEpoch : Int) - 1) || stop) = log
          cases log
          · simp only [Bool.false_eq_true, if_false]
            cases stop
            · exact ih (out.steps + 1) st' { out with steps := out.steps + 1, history := out.history ++ [p.lossOf (at' p s out.steps)] } rfl
            · rfl
          · simp only [if_true]
            have ht : lastTest p s (out.logged ++ [out.steps]) = some (p.measure (p.next (at' p s out.steps))) := by simp [lastTest, at']
            cases stop
            · have := ih (out.steps + 1) st'
                { out with steps := out.steps + 1, logged := out.logged ++ [out.steps], history := out.history ++ [p.lossOf (at' p s out.steps)] } rfl
              rw [ht] at this
              exact this
            · simp only [if_true, Option.map_some, Except.map, leftOf, ht]
              rfl
    · rfl

/-- The loop keeps the motor positions of the epoch before. -/
def storedBefore (p : Process S K T) (s : S) : Nat → Option T
  | 0 => none
  | e + 1 => some (p.measure (at' p s e))

def aimLeft (p : Process S K T) (s : S) (out : Outcome K) : Left S K T :=
  ⟨out, at' p s out.steps, lossBefore (fun e => p.lossOf (at' p s e)) out.steps, storedBefore p s out.steps⟩

theorem aimLoop_refines (p : Process S K T) (o : Options K) (c : Config K) (s : S) (fuel e : Nat) (st : Stopper K) (out : Outcome K) (he : out.steps = e) :
    aimLoop p o c fuel e (lossBefore (fun e => p.lossOf (at' p s e)) e) st out (at' p s e) (storedBefore p s e) =
      (Loop.aimLoop o c (fun e => p.lossOf (at' p s e)) fuel e (lossBefore (fun e => p.lossOf (at' p s e)) e) st out).map (Except.map (aimLeft p s)) := by
  induction fuel generalizing e st out with
  | zero => rfl
  | succ fuel ih =>
    subst he
    rw [aimLoop, Loop.aimLoop]
    split
    · dsimp only
      split
      · rfl
      · cases hstep : step c st (p.lossOf (at' p s out.steps)) with
        | error err => rfl
        | ok r =>
          obtain ⟨stop, st'⟩ := r
          dsimp only
          by_cases hq : out.steps % effectiveLogStep o = 0
          · simp only [if_pos hq]
            cases stop
            · exact ih (out.steps + 1) st' { out with steps := out.steps + 1, logged := out.logged ++ [out.steps], history := out.history ++ [p.lossOf (at' p s out.steps)] } rfl
            · rfl
          · simp only [if_neg hq]
            cases stop
            · exact ih (out.steps + 1) st' { out with steps := out.steps + 1, history := out.history ++ [p.lossOf (at' p s out.steps)] } rfl
            · rfl
    · rfl

theorem reconstruct_eq (p : Process S K T) (o : Options K) (c : Config K) (s : S) :
    reconstruct p o c s = (Loop.reconstruct o c (fun e => p.lossOf (at' p s e))).map (Except.map (leftOf p s)) :=
  reconstructLoop_refines p o c s _ 0 fresh start rfl

theorem aim_eq (p : Process S K T) (o : Options K) (c : Config K) (s : S) :
    aim p o c s = (Loop.aim o c (fun e => p.lossOf (at' p s e))).map (Except.map (aimLeft p s)) :=
  aimLoop_refines p o c s _ 0 fresh start rfl

theorem at'_eq (p : Process S K T) (s : S) (e : Nat) : at' p s e = p.next^[e] s := by
  induction e with
  | zero => rfl
  | succ e ih => rw [Function.iterate_succ_apply', ← ih]; rfl

end Artist.Result
