import Verif.Model.LogFlags
/-!
# Specification vocabulary: logging flags requested in calls
-/

namespace Netlab.Spec
open Netlab

/-- The flags a user can turn on or off -/
inductive LfFlag
  | logging
  | quiet
  | warning
  | raiseError

/-- The value of a flag -/
def lfValue (s : LfSt) : LfFlag → Bool
  | .logging => s.logging
  | .quiet => s.quiet
  | .warning => s.warning
  | .raiseError => s.raiseError

/-- The value of a flag requested in a call: a command line argument can only turn it on (quiet messages are also requested with
`--test errors`), and a program can turn it on or off. -/
def Requests : LfCall → LfFlag → Bool → Prop
  | .args a, .logging, v => v = true ∧ a.logging = some true
  | .args a, .quiet, v => v = true ∧ (a.quiet = some true ∨ ∃ l, a.test = some (some l) ∧ "errors" ∈ l)
  | .args a, .warning, v => v = true ∧ a.warning = some true
  | .args a, .raiseError, v => v = true ∧ a.raiseError = some true
  | .set f, .logging, v => f.logging = some v
  | .set f, .quiet, v => f.quiet = some v
  | .set f, .warning, v => f.warning = some v
  | .set f, .raiseError, v => f.raiseError = some v

/-- The verbosity requested in a call -/
def RequestsVerbose : LfCall → Nat → Prop
  | .args a, n => a.verbose = some n ∧ n ≠ 0
  | .set f, n => f.verbose = some n

/-- Debugging requested in a call: nothing, everything, or a list of flags.  A command that has the `--debug` argument turns
debugging off when the argument is not used. -/
def RequestsDebug : LfCall → (String → Prop) → Prop
  | .args a, p => (a.debug = some none ∧ p = fun _ => False) ∨ (a.debug = some (some []) ∧ p = fun _ => True) ∨
      ∃ l, l ≠ [] ∧ a.debug = some (some l) ∧ p = fun x => "all" ∈ l ∨ x ∈ l
  | .set f, p => ∃ l, f.debug = some l ∧ p = fun x => "all" ∈ l ∨ x ∈ l

end Netlab.Spec
