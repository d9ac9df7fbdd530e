/-
Model of the switches for logging (internal/logger.go, hbci.go) and of the programs that use them.
-/

namespace Verif.Logger

/-- What a program does with the loggers, followed by the rest of it. -/
inductive Prog (Line : Type) where
  | done
  | crash
  /-- A line for the logger `Debug` (/repo/internal/logger.go:46). -/
  | debug (l : Line) (rest : Prog Line)
  /-- A line for the logger `Info` (/repo/internal/logger.go:49). -/
  | info (l : Line) (rest : Prog Line)
  /-- /repo/hbci.go:9-11 `SetDebugMode`. -/
  | setDebug (on : Bool) (rest : Prog Line)
  /-- /repo/hbci.go:14-16 `SetInfoLog`. -/
  | setInfo (on : Bool) (rest : Prog Line)
  /-- /repo/client/client.go:45-46 `New` with `EnableDebugLogging`, as far as the loggers are concerned. -/
  | newClient (debugLogging : Bool) (rest : Prog Line)
  /-- /repo/internal/logger.go:39-43 `WithDebugLogging`. -/
  | withDebug (body rest : Prog Line)

/-- The variables of /repo/internal/logger.go:14-15 and what stands on the standard error output: each line
with whether it came from `Debug`. -/
structure St (Line : Type) where
  debugMode : Bool
  infoMode : Bool
  written : List (Bool × Line)

/-- At the start of a program (/repo/internal/logger.go:10-15).  Simplification: the command line flag
`-debug` is not given. -/
def start {Line : Type} : St Line := ⟨false, true, []⟩

/-- /repo/internal/logger.go:65-70 `conditionalWriter.Write`, called by the logger for each line.
Simplification: prefix and time of the line are left out. -/
def write {Line : Type} (condition fromDebug : Bool) (l : Line) (s : St Line) : St Line :=
  if condition then { s with written := s.written ++ [(fromDebug, l)] } else s

/-- Running a program; `true` if it panicked.  Simplification: nothing runs concurrently. -/
def run {Line : Type} : Prog Line → St Line → St Line × Bool
  | .done, s => (s, false)
  | .crash, s => (s, true)
  | .debug l k, s => run k (write s.debugMode true l s)
  | .info l k, s => run k (write s.infoMode false l s)
  | .setDebug on k, s => run k { s with debugMode := on }
  | .setInfo on k, s => run k { s with infoMode := on }
  | .newClient on k, s => run k { s with debugMode := on }
  | .withDebug body k, s =>
    match run body { s with debugMode := true } with
    | (s', true) => (s', true)
    | (s', false) => run k { s' with debugMode := false }

end Verif.Logger
