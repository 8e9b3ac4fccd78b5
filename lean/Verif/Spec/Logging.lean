import Verif.Model.Logging
/-!
# Destinations that were asked for, and well-bracketed logs (C98, C99)
-/
namespace Artist.Logging

/-- how often a call of the set-up functions asks for a destination of general messages -/
def Setup.asks (d : Dest) : Setup → Nat
  | .config _ logFile toStdout => (if toStdout ∧ d = .stdout then 1 else 0) + (if logFile.map Dest.file = some d then 1 else 0)
  | .runtime _ _ => 0

/-- the level of the last call of `set_logger_config` -/
def lastLevel : List Setup → Option Nat
  | [] => none
  | s :: rest => (lastLevel rest).or (match s with | .config level _ _ => some level | .runtime _ _ => none)

/-- the level a general message needs: that of the last configuration; without one, or for level zero, that of the root logger -/
def needed (history : List Setup) (rootLevel : Nat) : Nat :=
  match lastLevel history with
  | none => rootLevel
  | some 0 => rootLevel
  | some v => v

/-- the level of the last call of `set_runtime_logger` -/
def lastRuntimeLevel : List Setup → Option Nat
  | [] => none
  | s :: rest => (lastRuntimeLevel rest).or (match s with | .runtime _ level => some level | .config _ _ _ => none)

/-- the level a message about run times needs: that of the last call of `set_runtime_logger`; without one `logging.INFO`; for level zero that of general messages -/
def neededForRuntime (history : List Setup) (rootLevel : Nat) : Nat :=
  match lastRuntimeLevel history with
  | none => 20
  | some 0 => needed history rootLevel
  | some v => v

/-- every start is followed by its own finish, and calls lie inside each other -/
inductive Balanced : List Line → Prop
  | nil : Balanced []
  | call (name : String) (duration : ℚ) {inner : List Line} : Balanced inner → Balanced (.started name :: inner ++ [.finished name duration])
  | append {a b : List Line} : Balanced a → Balanced b → Balanced (a ++ b)

/-- no call, inner or outer, raises -/
inductive Quiet : Call → Prop
  | mk (name : String) (inner : List (ℚ × Call)) (rest : ℚ) (h : ∀ x ∈ inner, Quiet x.2) : Quiet (.mk name inner rest false)

mutual
/-- the time a call takes, inner calls included -/
def Call.time : Call → ℚ
  | .mk _ inner rest _ => timeAll inner + rest

/-- the time until the end of the last inner call -/
def timeAll : List (ℚ × Call) → ℚ
  | [] => 0
  | (gap, c) :: cs => gap + c.time + timeAll cs
end

/-- time never runs backwards -/
inductive Forward : Call → Prop
  | mk (name : String) (inner : List (ℚ × Call)) (rest : ℚ) (raises : Bool) (hg : ∀ x ∈ inner, 0 ≤ x.1) (h : ∀ x ∈ inner, Forward x.2) (hr : 0 ≤ rest) : Forward (.mk name inner rest raises)

end Artist.Logging
