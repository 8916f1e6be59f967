import Verif.Model.Validation
/-!
# Validation plugins and selection of tests (`netsim/cli/validate.py`)
-/

namespace Netlab

/-- A plugin file (`netsim/cli/validate.py:270-273`): it might not exist, it might not be a working Python module
(`netsim/utils/files.py:190-206`), or it defines functions -/
inductive PlFile where
  | missing
  | broken
  | ok (functions : List String)
  deriving Repr, DecidableEq

/-- The search path and files in these directories: `file path device` is `path/device.py` (`netsim/cli/validate.py:265-271`). -/
structure PlEnv where
  path : List String
  file : String → String → PlFile

/-- Reported errors (`netsim/cli/validate.py:276-283`, `netsim/utils/files.py:199-203`, `netsim/cli/validate.py:328-335`): the text of
the first one has no device name because of a missing `f`. -/
inductive PlEvent where
  | noPlugin (device : String)
  | broken (device : String)
  | noAction (device func : String)
  deriving Repr, DecidableEq

/-- `_validation_plugins`, `PLUGIN_ERROR`, errors, and loaded modules (`netsim/cli/validate.py:186`, 257) -/
structure PlState where
  cache : List (String × Option (List String)) := []
  reported : List String := []
  events : List PlEvent := []
  loads : List String := []
  deriving Repr, DecidableEq

/-- The first file found on the search path (`netsim/cli/validate.py:270-273`) -/
def plFind (env : PlEnv) (device : String) : List String → PlFile
  | [] => .missing
  | p :: r => match env.file p device with
    | .missing => plFind env device r
    | f => f

/-- `netsim/cli/validate.py:259-285` (`load_plugin`) -/
def loadTestPlugin (env : PlEnv) (device : String) (s : PlState) : Option (List String) × PlState :=
  match plFind env device env.path with
  | .ok fs => (some fs, { s with loads := s.loads ++ [device] })
  | .broken => (none, { s with loads := s.loads ++ [device], events := s.events ++ [.broken device] })
  | .missing =>
    if s.reported.contains device then (none, s)
    else (none, { s with reported := s.reported ++ [device], events := s.events ++ [.noPlugin device] })

/-- `netsim/cli/validate.py:296-303` (`find_plugin`) -/
def findTestPlugin (env : PlEnv) (device : String) (s : PlState) : Option (List String) × PlState :=
  match s.cache.lookup device with
  | some p => (p, s)
  | none =>
    let x := loadTestPlugin env device s
    (x.1, { x.2 with cache := x.2.cache ++ [(device, x.1)] })

/-- `v_entry.plugin.split('(')[0]` (`netsim/cli/validate.py:321`) -/
def plFunc (call : String) : String := String.ofList (call.toList.takeWhile (· != '('))

/-- `netsim/cli/validate.py:311-336` (`find_plugin_action`): `true` is `show`, `false` is `exec`.  The key of the error is never
stored, so the error is reported every time. -/
def findPluginAction (env : PlEnv) (device : String) (plugin : Option String) (s : PlState) : Option Bool × PlState :=
  match plugin with
  | none => (none, s)
  | some call =>
    let x := findTestPlugin env device s
    match x.1 with
    | none => (none, x.2)
    | some fs =>
      if fs.contains ("show_" ++ plFunc call) then (some true, x.2)
      else if fs.contains ("exec_" ++ plFunc call) then (some false, x.2)
      else (none, { x.2 with events := x.2.events ++ [.noAction device (plFunc call)] })

/-- A request to find an action: files at that time, the device and the plugin call (`netsim/cli/validate.py:311`) -/
structure PlCall where
  env : PlEnv
  device : String
  plugin : Option String

/-- A sequence of requests made while tests are executed (`netsim/cli/validate.py:639-640`) -/
def plRun (s : PlState) : List PlCall → PlState
  | [] => s
  | c :: r => plRun (findPluginAction c.env c.device c.plugin s).2 r

/-- `netsim/cli/validate.py:1034-1049` (`filter_by_tests`): selected tests and the number of errors; `pending` says there were errors
before the function was called. -/
def filterByTests (pending : Bool) (args : List String) (tests : List String) : List String × Nat :=
  if args.isEmpty then (tests, 0)
  else
    let n := (args.filter (fun t => (tests.filter (· == t)).isEmpty)).length
    if pending || n != 0 then (tests, n)
    else (tests.filter (fun t => args.contains t), 0)

end Netlab
