import Verif.Model.Log
/-!
# Specification vocabulary for errors and warnings
-/

namespace Netlab.Spec

/-- A warning (or a check) disabled with a flag in lab topology -/
def FlagOff (env : LgEnv) (topo : Bool) (module : String) (flag : String) : Prop := topo = true ∧ env.flag (lgFlag module flag) = some false

instance (env : LgEnv) (topo : Bool) (module flag : String) : Decidable (FlagOff env topo module flag) := by unfold FlagOff; infer_instance

/-- The call reports an error: everything but warnings and disabled checks -/
def ReportsError (env : LgEnv) (topo : Bool) : LgOp → Prop
  | .error m => m.cat ≠ "Warning"
  | .warning m (some f) => m.cat ≠ "Warning" ∧ ¬ FlagOff env topo m.module f
  | .warning _ none => False
  | .fatal _ _ => True
  | .repeatWarnings _ => False
  | .exitOnError _ => False

/-- The module displayed in a message -/
def shownModule (module : String) : String := if module = "-" then "" else module

/-- The message a call displays to the user: quiet warnings and disabled warnings are not displayed -/
def messageOf (env : LgEnv) (topo quiet : Bool) : LgOp → Option LgOut
  | .error m => if m.cat = "Warning" ∧ quiet then none else some (.msg m.cat (shownModule m.module) m.text)
  | .warning m none => if quiet then none else some (.msg "Warning" (shownModule m.module) m.text)
  | .warning m (some f) =>
    if FlagOff env topo m.module f then none else if m.cat = "Warning" ∧ quiet then none else some (.msg m.cat (shownModule m.module) m.text)
  | _ => none

/-- Errors and warnings -/
def isMessage : LgOut → Bool
  | .msg _ _ _ => true
  | _ => false

/-- The hint displayed to the user has the specified line -/
def showsLine (q : String) : LgOut → Bool
  | .hint (.one s) => s == q
  | .hint (.many l) => l.contains q
  | _ => false

/-- The hint given by the caller does not have the specified line -/
def hintWithout (q : String) : Option LgHint → Prop
  | some (.one s) => s ≠ q
  | some (.many l) => q ∉ l
  | none => True

/-- Hints given in a call -/
def callHint : LgOp → Option LgHint
  | .error m => m.more
  | .warning m _ => m.more
  | _ => none

end Netlab.Spec
