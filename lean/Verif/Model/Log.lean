import Verif.Model.Nodeset
/-!
# Errors, warnings and hints (`netsim/utils/log.py`)

Simplifications: the layout of messages (colors, padding, error header) is left out; the `WARNING` flag is left out, as `error` never raises a Python warning
(`isinstance(category,Warning)` is false for every class); the name of the calling module is given; the `topology` used to find flags and static hints does not change.
-/

namespace Netlab

/-- The `more_hints` or `more_data` argument: a text or a list of lines (`netsim/utils/log.py:206-207`) -/
inductive LgHint where
  | one (s : String)
  | many (l : List String)
  deriving DecidableEq, Repr

/-- Something displayed to the user: a message with its category and module, a hint, additional data, or a static hint (`netsim/utils/log.py:228-276`) -/
inductive LgOut where
  | msg (cat module text : String)
  | hint (h : LgHint)
  | data (h : LgHint)
  | static (module hint : String)
  deriving DecidableEq, Repr

/-- The global variables of the logging system (`netsim/utils/log.py:18-32`), the static hints of the topology (`none`: there's no topology) and everything displayed so far -/
structure LgSt where
  errors : List String := []
  warnings : List String := []
  cache : List LgHint := []
  quiet : Bool := false
  hints : Option (List ((String × String) × String)) := none
  display : List LgOut := []
  deriving DecidableEq, Repr

/-- Text formatting: wrapping a hint into lines, formatting a static hint, its lines on a color terminal (`netsim/utils/log.py:151-156, 268, 272-273`), and the flags of the topology
(`netsim/utils/log.py:314-315`, `some false` is `False`) -/
structure LgEnv where
  wrap : String → List String
  format : String → String
  colorLines : String → List String := fun _ => []
  flag : String → Option Bool := fun _ => none

/-- Arguments of `error` (`netsim/utils/log.py:201-211`) -/
structure LgMsg where
  text : String
  cat : String := "UserWarning"
  module : String := "topology"
  hint : Option String := none
  more : Option LgHint := none
  data : Option LgHint := none
  exit : Bool := false
  deriving DecidableEq, Repr

/-- `split("\n")` (`netsim/utils/log.py:115, 225`) -/
def lgLines (s : String) : List String := (splitOnChar '\n' s.toList).map String.ofList

/-- The text in front of an error message (`netsim/utils/log.py:217`) -/
def lgErrText (m : LgMsg) : String :=
  if m.module = "" then m.cat ++ ": " ++ m.text else m.cat ++ " in " ++ m.module ++ ": " ++ m.text

/-- Lines of a hint (`netsim/utils/log.py:151-161`) -/
def lgHintLines (env : LgEnv) (h : LgHint) : List String :=
  (match h with
    | .one s => env.wrap s
    | .many l => l).filter (fun s => s != "")

/-- `netsim/utils/log.py:143-179` (`print_more_hints`) -/
def lgPrint (env : LgEnv) (warn : Bool) (h : LgHint) (o : LgOut) (s : LgSt) : LgSt :=
  let ls := lgHintLines env h
  if ls.isEmpty then s
  else { s with errors := if warn then s.errors else s.errors ++ ls.map (fun l => "... " ++ l), display := s.display ++ [o] }

/-- The message (`netsim/utils/log.py:219-243`); `none`: a warning that should not be displayed -/
def lgMsg (m : LgMsg) (s : LgSt) : Option LgSt :=
  if m.cat = "Warning" then
    if s.quiet then none
    else some { s with warnings := s.warnings ++ lgLines (m.module ++ ": " ++ m.text), display := s.display ++ [.msg m.cat m.module m.text] }
  else some { s with errors := s.errors ++ lgLines (lgErrText m), display := s.display ++ [.msg m.cat m.module m.text] }

/-- The additional data (`netsim/utils/log.py:245-246`) -/
def lgData (env : LgEnv) (m : LgMsg) (s : LgSt) : LgSt :=
  match m.data with
  | some d => lgPrint env (m.cat == "Warning") d (.data d) s
  | none => s

/-- The hint of the caller (`netsim/utils/log.py:248-251`) -/
def lgMore (env : LgEnv) (m : LgMsg) (s : LgSt) : LgSt :=
  match m.more with
  | some h =>
    let s := if s.cache.contains h then s else lgPrint env (m.cat == "Warning") h (.hint h) s
    { s with cache := s.cache ++ [h] }
  | none => s

/-- Mark a static hint as displayed (`netsim/utils/log.py:280`) -/
def lgUsed (k : String × String) (hs : List ((String × String) × String)) : List ((String × String) × String) :=
  hs.map (fun p => if p.1 = k then (p.1, "") else p)

/-- The static hint (`netsim/utils/log.py:253-280`) -/
def lgStatic (env : LgEnv) (m : LgMsg) (s : LgSt) : LgSt :=
  match m.hint, s.hints with
  | some h, some hs =>
    match hs.lookup (m.module, h) with
    | some t =>
      if t = "" then s
      else { s with
        errors := if m.cat = "Warning" then s.errors
          else s.errors ++ lgLines (env.format t) ++ ((env.colorLines t).filter (fun l => l != "")).map (fun l => "... " ++ l)
        display := s.display ++ [.static m.module h]
        hints := some (lgUsed (m.module, h) hs) }
    | none => s
  | _, _ => s

/-- `netsim/utils/log.py:201-283` (`error`): the new state, and whether the program terminates -/
def lgError (env : LgEnv) (m : LgMsg) (s : LgSt) : LgSt × Bool :=
  let m := if m.module = "-" then { m with module := "" } else m
  match lgMsg m s with
  | none => (s, false)
  | some s1 => (lgStatic env m (lgMore env m (lgData env m s1)), m.exit && m.cat != "Warning")

/-- The name of the flag (`netsim/utils/log.py:305-310`) -/
def lgFlag (module flag : String) : String :=
  if "defaults.".toList.isPrefixOf flag.toList then flag
  else if flag.toList.contains '.' then "defaults.warnings." ++ flag
  else "defaults." ++ module ++ ".warnings." ++ flag

/-- The hint describing the flag (`netsim/utils/log.py:322-323`) -/
def lgDisable (cat flag : String) : String :=
  "Set " ++ flag ++ " to False to " ++ (if cat = "Warning" then "hide this warning" else "disable this check")

/-- Add the hint describing the flag to the hint of the caller (`netsim/utils/log.py:324-340`): the hint of the caller that has to be remembered, the hint to be displayed, and the
new hints cache -/
def lgAddHint (q : String) (more : Option LgHint) (cache : List LgHint) : Option LgHint × Option LgHint × List LgHint :=
  let c := match more with
    | some h => if cache.contains h then none else some h
    | none => none
  if cache.contains (.one q) then (c, more, cache)
  else match c with
    | none => (c, some (.many [q]), cache ++ [.one q])
    | some (.many l) => (c, some (.many (l ++ [q])), cache ++ [.one q])
    | some (.one x) => (c, some (.many [x, q]), cache ++ [.one q])

/-- Is the hint of the caller remembered (`netsim/utils/log.py:343-344`): empty hints are not. -/
def lgHintSet : Option LgHint → List LgHint
  | some (.one s) => if s = "" then [] else [.one s]
  | some (.many l) => if l.isEmpty then [] else [.many l]
  | none => []

/-- `netsim/utils/log.py:292-344` (`warning`).  Without a flag the category is always `Warning`. -/
def lgWarning (env : LgEnv) (m : LgMsg) (flag : Option String) (s : LgSt) : LgSt × Bool :=
  match flag with
  | none => lgError env { m with cat := "Warning" } s
  | some f =>
    let fn := lgFlag m.module f
    if s.hints.isSome ∧ env.flag fn = some false then (s, false)
    else
      let a := lgAddHint (lgDisable m.cat fn) m.more s.cache
      let r := lgError env { m with more := a.2.1 } { s with cache := a.2.2 }
      if r.2 then r else ({ r.1 with cache := r.1.cache ++ lgHintSet a.1 }, false)

/-- `netsim/utils/log.py:111-138` (`fatal`): the program terminates, or an exception is raised. -/
def lgFatal (text module : String) (s : LgSt) : LgSt × Bool :=
  ({ s with errors := s.errors ++ lgLines ("Fatal error in " ++ module ++ ": " ++ text), display := s.display ++ [.msg "FatalError" module text] }, true)

/-- `netsim/utils/log.py:376-379` (`exit_on_error`) -/
def lgExit (max : Nat) (s : LgSt) : LgSt × Bool :=
  if s.errors.length > max then lgFatal "Cannot proceed beyond this point due to errors, exiting" "netlab" s else (s, false)

/-- `netsim/utils/log.py:385-396` (`repeat_warnings`) -/
def lgRepeat (env : LgEnv) (cmd : String) (s : LgSt) : LgSt :=
  if s.warnings.isEmpty then s
  else s.warnings.foldl (fun s w => (lgError env { text := w, cat := "Warning", module := "-" } s).1)
    (lgError env { text := "The following warnings were generated during the '" ++ cmd ++ "' processing", cat := "Warning", module := "-" } s).1

/-- `netsim/utils/log.py:510-516` (`init_log_system`) -/
def lgInit (s : LgSt) : LgSt := { s with errors := [], cache := [] }

/-- A call of the logging system (`netsim/utils/log.py:111-396`) -/
inductive LgOp where
  | error (m : LgMsg)
  | warning (m : LgMsg) (flag : Option String)
  | repeatWarnings (cmd : String)
  | exitOnError (max : Nat)
  | fatal (text module : String)

/-- Execute a call (see the functions; `netsim/utils/log.py:111-396`) -/
def lgOp (env : LgEnv) (o : LgOp) (s : LgSt) : LgSt × Bool :=
  match o with
  | .error m => lgError env m s
  | .warning m f => lgWarning env m f s
  | .repeatWarnings c => (lgRepeat env c s, false)
  | .exitOnError max => lgExit max s
  | .fatal t m => lgFatal t m s

/-- The calls a program makes until it terminates (`netsim/augment/main.py:19-99` for example) -/
def lgRun (env : LgEnv) : List LgOp → LgSt → LgSt × Bool
  | [], s => (s, false)
  | o :: r, s => if (lgOp env o s).2 then lgOp env o s else lgRun env r (lgOp env o s).1

end Netlab
