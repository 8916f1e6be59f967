/-!
# Logging flags

`set_logging_flags`, `set_flag` and `debug_active` (`netsim/utils/log.py`).

Simplifications: printouts and the error header are not modelled; a missing command line argument is `none`.
-/

namespace Netlab

/-- Global flags: `netsim/utils/log.py:440` -/
structure LfSt where
  verbose : Nat := 0
  logging : Bool := false
  quiet : Bool := false
  warning : Bool := false
  raiseError : Bool := false
  debug : Option (List String) := none
  deriving DecidableEq

/-- Parsed command line arguments, `netsim/utils/log.py:443-469`.  The value of an argument is `none` when the command does not have
that argument. -/
structure LfArgs where
  verbose : Option Nat := none
  logging : Option Bool := none
  test : Option (Option (List String)) := none
  quiet : Option Bool := none
  warning : Option Bool := none
  raiseError : Option Bool := none
  debug : Option (Option (List String)) := none

/-- Parameters of `set_flag`, `netsim/utils/log.py:476-482` -/
structure LfSet where
  verbose : Option Nat := none
  logging : Option Bool := none
  quiet : Option Bool := none
  warning : Option Bool := none
  raiseError : Option Bool := none
  debug : Option (List String) := none

/-- The argument is present and its value is true, `netsim/utils/log.py:446-469` -/
def lfOn (x : Option Bool) : Bool := x == some true

/-- `'errors' in args.test`, `netsim/utils/log.py:449` -/
def lfTest (x : Option (Option (List String))) : Bool :=
  match x with
  | some (some l) => l.contains "errors"
  | _ => false

/-- `set_logging_flags`, `netsim/utils/log.py:439-469`: every statement changes one flag. -/
def setLoggingFlags (a : LfArgs) (s : LfSt) : LfSt where
  verbose := match a.verbose with
    | some n => if n ≠ 0 then n else s.verbose
    | none => s.verbose
  logging := if lfOn a.logging then true else s.logging
  quiet := if lfOn a.quiet then true else if lfTest a.test then true else s.quiet
  debug := match a.debug with
    | none => s.debug
    | some none => none
    | some (some l) => some (if l.isEmpty then ["all"] else l)
  warning := if lfOn a.warning then true else s.warning
  raiseError := if lfOn a.raiseError then true else s.raiseError

/-- `set_flag`, `netsim/utils/log.py:476-499`: the new flags and the result. -/
def setFlag (f : LfSet) (s : LfSt) : LfSt × LfSt :=
  let r : LfSt :=
    { verbose := f.verbose.getD s.verbose, logging := f.logging.getD s.logging, quiet := f.quiet.getD s.quiet,
      warning := f.warning.getD s.warning, raiseError := f.raiseError.getD s.raiseError, debug := f.debug.or s.debug }
  (r, r)

/-- `debug_active`, `netsim/utils/log.py:501-505` -/
def debugActive (s : LfSt) (flag : String) : Bool :=
  match s.debug with
  | none => false
  | some l => if l.isEmpty then false else l.contains "all" || l.contains flag

/-- A call of `set_logging_flags` or `set_flag`, `netsim/utils/log.py:439-499` -/
inductive LfCall
  | args (a : LfArgs)
  | set (f : LfSet)

/-- One call, `netsim/utils/log.py:439-499` -/
def lfCall (s : LfSt) : LfCall → LfSt
  | .args a => setLoggingFlags a s
  | .set f => (setFlag f s).1

/-- A sequence of calls, `netsim/utils/log.py:439-499` -/
def lfRun (s : LfSt) (l : List LfCall) : LfSt := l.foldl lfCall s

end Netlab
