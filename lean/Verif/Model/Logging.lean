import Mathlib.Data.Rat.Defs
import Mathlib.Algebra.Order.Field.Basic
/-!
# Model of the logging set-up (`artist/util/__init__.py` 80-210)

Python's `logging` is modelled as far as it decides where a message goes: a logger has handlers and a level, level 0 means "that of the parent",
the logger a message is given to decides whether the level suffices, and then the handlers of this logger and of all its parents write
it, whatever the levels of the parents are.  Handlers have no level of their own here.  Not modelled: formats and colours, creation of
folders, different spellings of one path, the handler of last resort.
-/
namespace Artist.Logging

/-- where a handler writes to (`util/__init__.py` 119-132, 165) -/
inductive Dest where
  | stdout
  | file (name : String)
deriving DecidableEq

/-- The loggers `"artist"` and `"artist.runtime"` (`util/__init__.py` 101, 157-158) and the level of the root logger, which belongs to the user. -/
structure Loggers where
  base : List Dest
  baseLevel : Nat
  runtime : List Dest
  runtimeLevel : Nat
  rootLevel : Nat

/-- `logging.INFO` -/
def info : Nat := 20

/-- `set_logger_config` (`util/__init__.py` 80-135); `colors` only changes the format -/
def setLoggerConfig (level : Nat) (logFile : Option String) (toStdout : Bool) (l : Loggers) : Loggers :=
  let l := if toStdout then { l with base := l.base ++ [Dest.stdout] } else l
  let l := match logFile with
    | some f => { l with base := l.base ++ [Dest.file f] }
    | none => l
  { l with baseLevel := level }

/-- `set_runtime_logger` (`util/__init__.py` 138-174) -/
def setRuntimeLogger (logFile : String) (level : Nat) (l : Loggers) : Loggers :=
  let l := { l with runtimeLevel := level }
  if l.runtime = [] then { l with runtime := l.runtime ++ [Dest.file logFile] } else l

/-- the loggers after `import artist.util`, which ends with `set_runtime_logger("./runtime_log.txt")` (`util/__init__.py` 210) -/
def imported (rootLevel : Nat) : Loggers := setRuntimeLogger "./runtime_log.txt" info ⟨[], 0, [], 0, rootLevel⟩

/-- what a user does: one of the two set-up functions -/
inductive Setup where
  | config (level : Nat) (logFile : Option String) (toStdout : Bool)
  | runtime (logFile : String) (level : Nat)

/-- one of the two calls (`util/__init__.py` 80-174) -/
def Setup.run : Setup → Loggers → Loggers
  | .config level logFile toStdout, l => setLoggerConfig level logFile toStdout l
  | .runtime logFile level, l => setRuntimeLogger logFile level l

/-- the loggers after a sequence of calls, the first one first -/
def after (history : List Setup) (l : Loggers) : Loggers := history.foldl (fun l c => c.run l) l

/-- `Logger.getEffectiveLevel` of the loggers `artist.<module>` (all `logging.getLogger(__name__)` of the package) -/
def Loggers.moduleLevel (l : Loggers) : Nat := if l.baseLevel = 0 then l.rootLevel else l.baseLevel

/-- `Logger.getEffectiveLevel` of `artist.runtime` -/
def Loggers.ownRuntimeLevel (l : Loggers) : Nat := if l.runtimeLevel = 0 then l.moduleLevel else l.runtimeLevel

/-- `log.log(level, …)` in a module of the package: the destinations the message is written to, once for every handler -/
def moduleMessage (l : Loggers) (level : Nat) : List Dest := if l.moduleLevel ≤ level then l.base else []

/-- `runtime_log.log(level, …)`: the handlers of `artist.runtime`, then those of its parent `artist` -/
def runtimeMessage (l : Loggers) (level : Nat) : List Dest := if l.ownRuntimeLevel ≤ level then l.runtime ++ l.base else []

/-- A call of a function that is decorated with `track_runtime` (`util/__init__.py` 177-207): its name, the time it spends before each
decorated call it makes itself together with these calls, the time it spends at the end, and whether it raises.  A raised
exception of an inner call may be caught by the outer one or not. -/
inductive Call where
  | mk (name : String) (inner : List (ℚ × Call)) (rest : ℚ) (raises : Bool)

/-- a line of the runtime log (`util/__init__.py` 198, 202) -/
inductive Line where
  | started (name : String)
  | finished (name : String) (duration : ℚ)

mutual
/-- `wrapper` (`util/__init__.py` 196-203): the lines written and the time at the end, from the time at the beginning.  Writing a line takes no
time (simplified). -/
def Call.run : Call → ℚ → List Line × ℚ
  | .mk name inner rest raises, now =>
    let body := runAll inner now
    let stop := body.2 + rest
    (.started name :: body.1 ++ (if raises then [] else [.finished name (stop - now)]), stop)

/-- the inner calls one after the other (`util/__init__.py` 200) -/
def runAll : List (ℚ × Call) → ℚ → List Line × ℚ
  | [], now => ([], now)
  | (gap, c) :: cs, now =>
    let first := c.run (now + gap)
    let later := runAll cs first.2
    (first.1 ++ later.1, later.2)
end

/-- the lines written by a call that begins at time `now` (`util/__init__.py` 196-203) -/
def Call.lines (c : Call) (now : ℚ) : List Line := (c.run now).1

end Artist.Logging
