import Mathlib.Tactic.Linarith
import Mathlib.Tactic.Ring
import Mathlib.Tactic.NormNum
import Mathlib.Data.Rat.Cast.Order
import Verif.Spec.Logging
/-!
# C98, C99: destinations of log messages, runtime log
-/
namespace Artist.Logging

theorem run_base (s : Setup) (l : Loggers) (d : Dest) : (s.run l).base.count d = l.base.count d + s.asks d := by
  cases s with
  | runtime f v =>
    simp only [Setup.run, setRuntimeLogger, Setup.asks]
    split <;> simp
  | config v f t =>
    simp only [Setup.run, setLoggerConfig, Setup.asks]
    have hb : ∀ a : Dest, (if (a == d) = true then 1 else 0) = if a = d then 1 else 0 := by intro a; simp
    cases f <;> cases t <;>
      simp only [List.count_append, List.count_singleton, hb, Option.map_none, Option.map_some, Option.some.injEq, reduceCtorEq, Bool.false_eq_true, true_and, false_and, if_true, if_false,
        Nat.add_zero, Nat.zero_add, eq_comm (a := d), Nat.add_assoc]

theorem after_base (history : List Setup) (l : Loggers) (d : Dest) : (after history l).base.count d = l.base.count d + (history.map (·.asks d)).sum := by
  unfold after
  induction history generalizing l with
  | nil => simp
  | cons s rest ih => rw [List.foldl_cons, ih, run_base, List.map_cons, List.sum_cons, Nat.add_assoc]

theorem after_baseLevel (history : List Setup) (l : Loggers) : (after history l).baseLevel = (lastLevel history).getD l.baseLevel := by
  unfold after
  induction history generalizing l with
  | nil => rfl
  | cons s rest ih =>
    rw [List.foldl_cons, ih]
    cases h : lastLevel rest <;> cases s <;> simp [lastLevel, h, Setup.run, setLoggerConfig, setRuntimeLogger] <;> split <;> simp

theorem after_root (history : List Setup) (l : Loggers) : (after history l).rootLevel = l.rootLevel := by
  unfold after
  induction history generalizing l with
  | nil => rfl
  | cons s rest ih =>
    rw [List.foldl_cons, ih]
    cases s with
    | runtime f v => simp only [Setup.run, setRuntimeLogger]; split <;> rfl
    | config v f t => cases f <;> cases t <;> rfl

theorem after_runtime (history : List Setup) (l : Loggers) (h : l.runtime ≠ []) : (after history l).runtime = l.runtime := by
  unfold after
  induction history generalizing l with
  | nil => rfl
  | cons s rest ih =>
    have : (s.run l).runtime = l.runtime := by
      cases s with
      | runtime f v => simp only [Setup.run, setRuntimeLogger, if_neg h]
      | config v f t => cases f <;> cases t <;> rfl
    rw [List.foldl_cons, ih _ (by rw [this]; exact h), this]

theorem moduleLevel_after (history : List Setup) (rootLevel : Nat) : (after history (imported rootLevel)).moduleLevel = needed history rootLevel := by
  unfold Loggers.moduleLevel needed
  rw [after_baseLevel, after_root]
  have h1 : (imported rootLevel).baseLevel = 0 := rfl
  have h2 : (imported rootLevel).rootLevel = rootLevel := rfl
  rw [h1, h2]
  cases lastLevel history with
  | none => simp
  | some v => cases v <;> simp

/-- C98, exactly: a message is written to a destination as often as the destination was asked for, if its level reaches that of the last configuration. -/
theorem C98_copies (history : List Setup) (rootLevel level : Nat) (d : Dest) :
    (moduleMessage (after history (imported rootLevel)) level).count d =
      if needed history rootLevel ≤ level then (history.map (·.asks d)).sum else 0 := by
  unfold moduleMessage
  rw [moduleLevel_after]
  split
  · rw [after_base]
    have : (imported rootLevel).base = [] := rfl
    rw [this]; simp
  · rfl

/-- Partial, C98 for one configuration: every message of its level or above is written once to each of its destinations and nowhere else.  Missing:
repeated configurations, for which it is false (`C98_repeated`), and level zero. -/
theorem C98_once_partial (rootLevel level needed : Nat) (hn : needed ≠ 0) (logFile : Option String) (toStdout : Bool) :
    moduleMessage (after [.config needed logFile toStdout] (imported rootLevel)) level =
      if needed ≤ level then (if toStdout then [.stdout] else []) ++ (logFile.map Dest.file).toList else [] := by
  unfold moduleMessage Loggers.moduleLevel
  cases logFile <;> cases toStdout <;> simp [after, Setup.run, setLoggerConfig, imported, setRuntimeLogger, hn]

/-- C98 is false for repeated configurations: after `n` calls with the defaults every message is printed `n` times. -/
theorem C98_repeated (rootLevel n : Nat) :
    (moduleMessage (after (List.replicate n (.config info none true)) (imported rootLevel)) 30).count .stdout = n := by
  have hl : lastLevel (List.replicate n (.config info none true)) = if n = 0 then none else some info := by
    induction n with
    | zero => rfl
    | succ n ih => rw [List.replicate_succ, lastLevel, ih]; cases n <;> rfl
  rw [C98_copies]
  unfold needed
  rw [hl]
  have : ((List.replicate n (Setup.config info none true)).map (·.asks .stdout)).sum = n := by simp [Setup.asks]
  rw [this]
  cases n with
  | zero => simp
  | succ n => simp [info]

theorem after_runtimeLevel (history : List Setup) (l : Loggers) : (after history l).runtimeLevel = (lastRuntimeLevel history).getD l.runtimeLevel := by
  unfold after
  induction history generalizing l with
  | nil => rfl
  | cons s rest ih =>
    rw [List.foldl_cons, ih]
    cases h : lastRuntimeLevel rest with
    | some v => simp [lastRuntimeLevel, h]
    | none =>
      cases s with
      | runtime f v => simp only [lastRuntimeLevel, h, Setup.run, setRuntimeLogger]; split <;> simp
      | config v f t => cases f <;> cases t <;> simp [lastRuntimeLevel, h, Setup.run, setLoggerConfig]

theorem runtimeLevel_after (history : List Setup) (rootLevel : Nat) : (after history (imported rootLevel)).ownRuntimeLevel = neededForRuntime history rootLevel := by
  unfold Loggers.ownRuntimeLevel neededForRuntime
  rw [after_runtimeLevel, moduleLevel_after]
  have h1 : (imported rootLevel).runtimeLevel = 20 := rfl
  rw [h1]
  cases lastRuntimeLevel history with
  | none => simp
  | some v => cases v <;> simp

/-- C98, run times, exactly: the messages go to `./runtime_log.txt`, and to all destinations of general messages, whatever the level of these is. -/
theorem C98_runtime (history : List Setup) (rootLevel level : Nat) (d : Dest) :
    (runtimeMessage (after history (imported rootLevel)) level).count d =
      if neededForRuntime history rootLevel ≤ level then
        (if d = .file "./runtime_log.txt" then 1 else 0) + (history.map (·.asks d)).sum
      else 0 := by
  unfold runtimeMessage
  rw [runtimeLevel_after]
  split
  · rw [List.count_append, after_base, after_runtime _ _ (by simp [imported, setRuntimeLogger])]
    have h1 : (imported rootLevel).base = [] := rfl
    have h2 : (imported rootLevel).runtime = [.file "./runtime_log.txt"] := rfl
    rw [h1, h2]
    by_cases hd : d = .file "./runtime_log.txt"
    · subst hd; simp
    · rw [if_neg hd, List.count_singleton, if_neg (by simpa using fun h => hd h.symm)]; simp
  · rfl

/-- C98 is false for the runtime log: whatever file is requested, nothing is ever written to it, unless it is a file of the general log or `./runtime_log.txt` itself. -/
theorem C98_runtime_file_ignored (history : List Setup) (rootLevel level : Nat) (f : String) (hf : f ≠ "./runtime_log.txt")
    (hnot : ∀ v t, Setup.config v (some f) t ∉ history) : (runtimeMessage (after history (imported rootLevel)) level).count (.file f) = 0 := by
  rw [C98_runtime]
  have : (history.map (·.asks (.file f))).sum = 0 := by
    induction history with
    | nil => rfl
    | cons s rest ih =>
      rw [List.map_cons, List.sum_cons, ih (fun v t h => hnot v t (List.mem_cons_of_mem _ h))]
      cases s with
      | runtime _ _ => rfl
      | config v g t =>
        cases g with
        | none => simp [Setup.asks]
        | some g =>
          have : g ≠ f := by rintro rfl; exact hnot v t List.mem_cons_self
          simp [Setup.asks, this]
  simp [this, hf]

/-- the hypotheses hold for a user who asks for another runtime log -/
example : (runtimeMessage (after [.config info none true, .runtime "times.txt" info] (imported 30)) info) = [.file "./runtime_log.txt", .stdout] := by decide

/-- C98 is false for the level: with the level of warnings (30) no information is printed, but the run times still are. -/
theorem C98_level_ignored (rootLevel : Nat) :
    moduleMessage (after [.config 30 none true] (imported rootLevel)) info = [] ∧
    runtimeMessage (after [.config 30 none true] (imported rootLevel)) info = [.file "./runtime_log.txt", .stdout] := by
  constructor <;> simp [moduleMessage, runtimeMessage, after, Setup.run, setLoggerConfig, imported, setRuntimeLogger, Loggers.moduleLevel, Loggers.ownRuntimeLevel, info]

/-- two destinations, one of them twice -/
example : moduleMessage (after [.config 10 (some "a.log") true, .config 30 none true] (imported 30)) 30 = [.stdout, .file "a.log", .stdout] ∧
    moduleMessage (after [.config 10 (some "a.log") true, .config 30 none true] (imported 30)) info = [] := by decide

mutual
theorem run_time : ∀ (c : Call) (now : ℚ), (c.run now).2 = now + c.time
  | .mk name inner rest raises, now => by
    rw [Call.run, Call.time, runAll_time inner now]; ring
theorem runAll_time : ∀ (cs : List (ℚ × Call)) (now : ℚ), (runAll cs now).2 = now + timeAll cs
  | [], now => by rw [runAll, timeAll]; ring
  | (gap, c) :: cs, now => by
    rw [runAll, timeAll]
    dsimp only
    rw [runAll_time cs, run_time c]; ring
end

/-- C99: a call that returns writes a line at its beginning and one at its end, the latter with the time it took; in between are the lines of the
calls it makes. -/
theorem C99_duration (name : String) (inner : List (ℚ × Call)) (rest now : ℚ) :
    ∃ between, (Call.mk name inner rest false).lines now = .started name :: between ++ [.finished name (Call.mk name inner rest false).time] ∧
      ((Call.mk name inner rest false).run now).2 = now + (Call.mk name inner rest false).time := by
  refine ⟨(runAll inner now).1, ?_, run_time _ _⟩
  rw [Call.lines, Call.run]
  dsimp only
  rw [if_neg (by simp), runAll_time, Call.time]
  congr 3
  ring_nf

theorem time_nonneg : ∀ {c : Call}, Forward c → 0 ≤ c.time := by
  intro c h
  induction h with
  | mk name inner rest raises hg h hr ih =>
    rw [Call.time]
    have : 0 ≤ timeAll inner := by
      clear hr
      induction inner with
      | nil => rw [timeAll]
      | cons x xs ihx =>
        obtain ⟨g, c⟩ := x
        rw [timeAll]
        have h1 := hg (g, c) (by simp)
        have h2 := ih (g, c) (by simp)
        have h3 := ihx (fun y hy => hg y (by simp [hy])) (fun y hy => h y (by simp [hy])) (fun y hy => ih y (by simp [hy]))
        dsimp only at h1 h2
        linarith
    linarith

/-- C99: the time reported for a function contains the times of the functions it calls. -/
theorem C99_contains (name : String) (inner : List (ℚ × Call)) (rest : ℚ) (raises : Bool) (h : Forward (.mk name inner rest raises)) :
    (inner.map (·.2.time)).sum ≤ (Call.mk name inner rest raises).time := by
  cases h with
  | mk _ _ _ _ hg h hr =>
    rw [Call.time]
    have : (inner.map (·.2.time)).sum ≤ timeAll inner := by
      clear hr
      induction inner with
      | nil => rw [timeAll]; simp
      | cons x xs ih =>
        obtain ⟨g, c⟩ := x
        rw [timeAll, List.map_cons, List.sum_cons]
        have h1 := hg (g, c) (by simp)
        have h3 := ih (fun y hy => hg y (by simp [hy])) (fun y hy => h y (by simp [hy]))
        dsimp only at h1 ⊢
        linarith
    linarith

/-- number of lines that start, number of lines that finish -/
def Line.isStart : Line → Bool
  | .started _ => true
  | .finished _ _ => false

theorem isStart_started (n : String) : (Line.started n).isStart = true := rfl
theorem isStart_finished (n : String) (d : ℚ) : (Line.finished n d).isStart = false := rfl

theorem balanced_count {l : List Line} (h : Balanced l) : l.countP (·.isStart) = l.countP (fun x => !x.isStart) := by
  induction h with
  | nil => rfl
  | call name duration _ ih => simp [List.countP_append, List.countP_cons, isStart_started, isStart_finished, ih, Nat.add_comm]
  | append _ _ iha ihb => rw [List.countP_append, List.countP_append, iha, ihb]

mutual
theorem finishes_le : ∀ (c : Call) (now : ℚ), (c.lines now).countP (fun x => !x.isStart) ≤ (c.lines now).countP (·.isStart) ∧
    ((c.lines now).countP (fun x => !x.isStart) = (c.lines now).countP (·.isStart) → Quiet c)
  | .mk name inner rest raises, now => by
    have ih := finishesAll_le inner now
    rw [Call.lines, Call.run]
    dsimp only
    cases raises
    · rw [if_neg (by simp)]
      simp only [List.cons_append, List.countP_cons, List.countP_append, isStart_started, isStart_finished, List.countP_nil, Bool.not_true, Bool.not_false, if_true, Bool.false_eq_true, if_false]
      exact ⟨by omega, fun h => .mk _ _ _ (ih.2 (by omega))⟩
    · rw [if_pos rfl]
      simp only [List.cons_append, List.append_nil, List.countP_cons, isStart_started, Bool.not_true, if_true, Bool.false_eq_true, if_false]
      exact ⟨by omega, fun h => absurd h (by omega)⟩
theorem finishesAll_le : ∀ (cs : List (ℚ × Call)) (now : ℚ), ((runAll cs now).1).countP (fun x => !x.isStart) ≤ ((runAll cs now).1).countP (·.isStart) ∧
    (((runAll cs now).1).countP (fun x => !x.isStart) = ((runAll cs now).1).countP (·.isStart) → ∀ x ∈ cs, Quiet x.2)
  | [], now => by rw [runAll]; simp
  | (gap, c) :: cs, now => by
    have h1 := finishes_le c (now + gap)
    have h2 := finishesAll_le cs (c.run (now + gap)).2
    rw [Call.lines] at h1
    rw [runAll]
    simp only [List.countP_append]
    refine ⟨by omega, ?_⟩
    intro h x hx
    rcases List.mem_cons.1 hx with rfl | hx
    · exact h1.2 (by omega)
    · exact h2.2 (by omega) x hx
end

theorem balanced_of_quiet {c : Call} (h : Quiet c) : ∀ now, Balanced (c.lines now) := by
  induction h with
  | mk name inner rest h ih =>
    intro now
    rw [Call.lines, Call.run]
    dsimp only
    rw [if_neg (by simp)]
    refine .call _ _ ?_
    clear h
    induction inner generalizing now with
    | nil => rw [runAll]; exact .nil
    | cons x xs ihx =>
      obtain ⟨g, c⟩ := x
      rw [runAll]
      exact .append (ih (g, c) (by simp) _) (ihx (fun y hy => ih y (by simp [hy])) _)

/-- C99, exactly: every start in the runtime log has its finish, properly nested, if and only if none of the calls raised. -/
theorem C99_balanced_iff (c : Call) (now : ℚ) : Balanced (c.lines now) ↔ Quiet c :=
  ⟨fun h => (finishes_le c now).2 (balanced_count h).symm, fun h => balanced_of_quiet h now⟩

/-- C99: a call that raises has no line with its run time, even if the exception is caught by the function that called it. -/
theorem C99_caught_exception : ∃ lines, (Call.mk "outer" [(1, .mk "inner" [] 2 true)] 3 false).lines 0 = lines ∧
    lines = [.started "outer", .started "inner", .finished "outer" 6] ∧ ¬ Balanced lines := by
  have h : (Call.mk "outer" [(1, .mk "inner" [] 2 true)] 3 false).lines 0 = [.started "outer", .started "inner", .finished "outer" 6] := by
    simp only [Call.lines, Call.run, runAll]
    norm_num
  refine ⟨_, h, rfl, ?_⟩
  rw [← h, C99_balanced_iff]
  intro hq
  cases hq with
  | mk _ _ _ h => cases h _ (List.mem_singleton_self _)

/-- two inner calls, one of them with an inner call of its own -/
example : Balanced ((Call.mk "a" [(1, .mk "b" [(0, .mk "c" [] 2 false)] 1 false), (0, .mk "d" [] 5 false)] 0 false).lines 7) :=
  (C99_balanced_iff _ _).2 (.mk _ _ _ (by
    simp only [List.mem_cons, List.not_mem_nil, or_false]
    rintro x (rfl | rfl)
    · exact .mk _ _ _ (by simp only [List.mem_cons, List.not_mem_nil, or_false]; rintro x rfl; exact .mk _ _ _ (by simp))
    · exact .mk _ _ _ (by simp)))

end Artist.Logging
