import Mathlib.Data.Int.Notation

/-! meshless/logger.py. A call returns the text and the list of lines printed. -/

set_option autoImplicit false

namespace Meshless

/-- What a logger call does: its return value and the lines it prints (each as the argument of `print`).
logger.py:1-16 -/
structure LogResult where
  ret : String
  printed : List String

/-- `'\t'*level + msg`; Python repeats a string zero times for a negative count. meshless/logger.py:4,10,15 -/
def tabbed (level : ℤ) (m : String) : String := String.ofList (List.replicate level.toNat '\t') ++ m

/-- `msg`, meshless/logger.py:13-16 -/
def logMsg (m : String) (level : ℤ) (silent : Bool) : LogResult :=
  ⟨m, if !silent then [tabbed level m] else []⟩
/-- `warn`, meshless/logger.py:1-5 -/
def logWarn (m : String) (level : ℤ) (silent : Bool) : LogResult :=
  let m := "WARNING: " ++ m
  ⟨m, if !silent then [tabbed level m] else []⟩
/-- `error`, meshless/logger.py:7-11 -/
def logError (m : String) (level : ℤ) (silent : Bool) : LogResult :=
  let m := "ERROR: " ++ m
  ⟨m, if !silent then [tabbed level m] else []⟩

end Meshless
