import Verif.Model.Vtep
import Verif.Model.Settings
/-!
# Lab validation tests and external tools (`netsim/augment/validate.py`, `netsim/augment/tools.py`)
-/

namespace Netlab

/-- `kw in v_entry` (`netsim/augment/validate.py:38` for example) -/
def teHas (e : List (String × Val)) (k : String) : Bool := (e.lookup k).isSome

/-- A string is replaced with a dictionary (`netsim/augment/validate.py:29-33`). -/
def teDict (key sub : String) (e : List (String × Val)) : List (String × Val) :=
  match e.lookup key with
  | some (.str s) => setKey e key (.dict [(sub, .str s)])
  | _ => e

/-- `netsim/augment/validate.py:29-33` -/
def teNorm (e : List (String × Val)) : List (String × Val) := teDict "config" "template" (teDict "suzieq" "show" e)

/-- `netsim/augment/validate.py:19-75` (`validate_test_entry`): the modified test and the result (a failed test is an error) -/
def teCheck (e : List (String × Val)) : List (String × Val) × Bool :=
  if !["show", "exec", "config", "wait", "plugin", "suzieq"].any (teHas e) then (e, false)
  else
    let n := teNorm e
    let x := ["show", "exec", "config", "plugin", "suzieq"].filter (teHas n)
    if decide (x.length > 1) && x.any (fun k => !["show", "exec"].contains k) then (n, false)
    else if !(teHas e "suzieq" || teHas e "wait") && !teHas n "nodes" then (n, false)
    else if teHas n "show" && !teHas n "valid" then (n, false)
    else if !teHas n "valid" then (n, true)
    else if !(teHas e "show" || teHas e "exec" || teHas e "suzieq") then (n, false)
    else (n, true)

/-- Devices mentioned in an action (`netsim/augment/validate.py:93-98`); `none` is a crash. -/
def teDevs : Option Val → Option (List String)
  | none => some []
  | some (.str _) => some []
  | some (.dict d) => some (d.map (·.1))
  | some _ => none

/-- Devices mentioned in the validation expression (`netsim/augment/validate.py:100-102`) -/
def teValid (v : Option Val) (l : List String) : List String :=
  match v with
  | some (.dict d) => l.filter (fun x => (d.lookup x).isSome)
  | _ => l

/-- `netsim/augment/validate.py:85-112` (`calculate_device_support`): the modified test and the number of errors; `none` is a crash. -/
def teSupport (e : List (String × Val)) : Option (List (String × Val) × Nat) :=
  if !teHas e "show" && !teHas e "exec" then some (e, 0)
  else if teHas e "devices" then some (e, 0)
  else
    match teDevs (e.lookup "show"), teDevs (e.lookup "exec") with
    | some a, some b =>
      let ds := sortedSet (teValid (e.lookup "valid") (a ++ b))
      some (setKey e "devices" (.list (ds.map .str)), if ds.isEmpty then 1 else 0)
    | _, _ => none

/-- A single test (`netsim/augment/validate.py:126-131`) -/
def teOne (t : String × List (String × Val)) : Option (List (String × Val) × Nat) :=
  let c := teCheck (setKey t.2 "name" (.str t.1))
  if c.2 then teSupport c.1 else some (c.1, 1)

/-- `netsim/augment/validate.py:122-133` (`process_validation`): the list of tests and the number of errors; `none` is a crash. -/
def teProcess (tests : List (String × List (String × Val))) : Option (List (List (String × Val)) × Nat) :=
  (tests.mapM teOne).map (fun l => (l.map (·.1), (l.map (·.2)).sum))

/-- Add a tool enabled in system defaults (`netsim/augment/tools.py:47-53`) -/
def toolAdd (ts : List (String × List (String × Val))) (d : String × List (String × Val)) : List (String × List (String × Val)) :=
  if d.2.lookup "enabled" = some (.bool true) ∧ (ts.lookup d.1).isNone = true then ts ++ [d] else ts

/-- `netsim/augment/tools.py:45-53` (`copy_default_tools`) -/
def toolCopy (defaults tools : List (String × List (String × Val))) : List (String × List (String × Val)) := defaults.foldl toolAdd tools

/-- `netsim/augment/tools.py:18-27` (`validate_tool_attributes`): the modified tool and the number of errors -/
def toolRuntime (defaults : List (String × List (String × Val))) (t : String × List (String × Val)) : (String × List (String × Val)) × Nat :=
  if (defaults.lookup t.1).isNone then (t, 1)
  else if (t.2.lookup "runtime").isNone then ((t.1, setKey t.2 "runtime" (.str "docker")), 0)
  else (t, 0)

/-- `netsim/augment/tools.py:32-40` (`merge_tool_defaults`): the number of errors; `none` is a crash (a missing runtime is an empty Box that cannot be used as a key).
The data of a runtime is a dictionary. -/
def toolMerge (defaults : List (String × List (String × Val))) (t : String × List (String × Val)) : Option Nat :=
  let d := mergeDict ((defaults.lookup t.1).getD []) t.2
  match d.lookup "runtime" with
  | some (.str r) =>
    match d.lookup r with
    | some (.dict x) => some (if (x.lookup "up").isSome then 0 else 1)
    | _ => some 1
  | some .null => some 1
  | some (.bool _) => some 1
  | some (.int _) => some 1
  | _ => none

/-- `netsim/augment/tools.py:62-69` (`process_tools`): the tools and the number of errors; `none` is a crash. -/
def toolProcess (defaults tools : List (String × List (String × Val))) : Option (List (String × List (String × Val)) × Nat) :=
  let ts := (toolCopy defaults tools).map (toolRuntime defaults)
  (ts.mapM (fun t => (toolMerge defaults t.1).map (· + t.2))).map (fun l => (ts.map (·.1), l.sum))

end Netlab
