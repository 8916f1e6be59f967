import Verif.Model.Box
/-!
# Settings collected from several scopes

Module parameters, default settings and device settings
-/

namespace Netlab

/-- Does a string contain another string?  (Python `x in y`, used in
`netsim/modules/__init__.py:226`) -/
def containsStr (x : List Char) : List Char → Bool
  | [] => x.isEmpty
  | c :: r => x.isPrefixOf (c :: r) || containsStr x r

/-- Attributes never copied from module defaults: `netsim/modules/__init__.py:20-23`. -/
def noPropagateList : List String :=
  ["attributes", "extra_attributes", "features", "requires", "supported_on", "no_propagate",
   "config_after", "transform_after", "warnings"]

/-- Keys that are not propagated for a module: `netsim/modules/__init__.py:223-226`.  `modNp` is the
`no_propagate` list of the module, `modKeys` are the keys of the module defaults. -/
def noPropagate (modNp modKeys : List String) : List String :=
  noPropagateList ++ modNp ++
    modKeys.filter (fun k => containsStr "no_propagate".toList k.toList)

/-- `get_propagated_global_module_params`: `netsim/modules/__init__.py:219-229`.  The deep copy made
by the function does not matter in the model. -/
def propagated (np : List String) (settings : List (String × Val)) : List (String × Val) :=
  np.foldl popKey settings

/-- One step of `merge_node_module_params`: add less specific settings to the module parameters of
the node unless they are missing or empty (`netsim/modules/__init__.py:200-203`).  The
parameters of the node are `none` when the node does not have them. -/
def addScope (scope : Option (List (String × Val))) (n : Option (List (String × Val))) :
    Option (List (String × Val)) :=
  match scope with
  | none => n
  | some [] => n
  | some (p :: r) => some (mergeDict (p :: r) (n.getD []))

/-- `merge_node_module_params`, the parameters of a single module on a single node:
`netsim/modules/__init__.py:197-212`.  `glob` are the module parameters of the topology,
`dev` the module parameters of the device, `dflt` the module defaults.  The test in line 206
looks at the device settings before the removal of keys, which makes a difference only
when nothing is left. -/
def nodeModuleParams (np : List String) (glob dev : Option (List (String × Val)))
    (dflt : List (String × Val)) (n : Option (List (String × Val))) :
    Option (List (String × Val)) :=
  let n := addScope (glob.map (propagated np)) n
  let n := match dev with
    | none => n
    | some [] => n
    | some (p :: r) => some (mergeDict (propagated np (p :: r)) (n.getD []))
  addScope (some (propagated np dflt)) n

/-- `merge_global_module_params`, the parameters of a single module:
`netsim/modules/__init__.py:276-296` -/
def globalModuleParams (np : List String) (dflt : List (String × Val))
    (topo : Option (List (String × Val))) : Option (List (String × Val)) :=
  addScope (some (propagated np dflt)) topo

/-- `include_defaults`: `netsim/utils/read.py:141-145`.  The contents of the file is `none` if
the file could not be read. -/
def includeDefaults (dflt : List (String × Val)) (file : Option (List (String × Val))) :
    List (String × Val) :=
  match file with
  | none => dflt
  | some [] => dflt
  | some (p :: r) => mergeDict (p :: r) dflt

/-- The value of a parameter that should be a list, and is used only when it's not empty; `True`
selects the default value (`netsim/utils/read.py:169-174` and `netsim/data/types.py:439-453`).
A scalar is turned into a single-element list. -/
def listParam (v : Option Val) (trueValue : List Val) : List Val :=
  match v with
  | none => []
  | some .null => []
  | some (.bool true) => trueValue
  | some (.bool false) => []
  | some (.list l) => l
  | some (.dict _) => []
  | some x => [x]

/-- `build_defaults_list`: `netsim/utils/read.py:162-206`.  The four arguments are the values of
`defaults.sources` parameters, the others the lists of user and system defaults (the arguments of
the function or the values in lines 18-19). -/
def buildDefaultsList (list extra user system : Option Val) (userDef sysDef allDef : List Val) :
    List Val :=
  if listParam list allDef ≠ [] then listParam list allDef
  else
    (if listParam extra [] ≠ [] then listParam extra [] else []) ++
    (if listParam user userDef ≠ [] then listParam user userDef else userDef) ++
    (if listParam system sysDef ≠ [] then listParam system sysDef else sysDef)

/-- `d['a.b.c'] = v` for a `Box` with `default_box` and `box_dots` (`netsim/utils/read.py:230`): missing
dictionaries are created; when an intermediate value is a scalar, the value is stored under the
rest of the key (with dots); a string key cannot be used in a list (`none`). -/
def setPath (v : Val) : List String → List (String × Val) → Option (List (String × Val))
  | [], d => some d
  | [k], d => some (setKey d k v)
  | k :: q, d => match d.lookup k with
    | none => (setPath v q []).map (fun s => setKey d k (.dict s))
    | some (.dict s) => (setPath v q s).map (fun s => setKey d k (.dict s))
    | some (.list _) => none
    | some _ => some (setKey d (".".intercalate (k :: q)) v)

/-- `include_environment_defaults`: `netsim/utils/read.py:215-230`.  The variables are given as
pairs of paths (lowercase name without the prefix, split at single underscores) and evaluated
values. -/
def includeEnvironment : List (List String × Val) → List (String × Val) →
    Option (List (String × Val))
  | [], d => some d
  | (p, v) :: r, d => match setPath v p d with
    | none => none
    | some d => includeEnvironment r d

/-- The part of `load` that collects default settings: `netsim/utils/read.py:266-275` -/
def loadDefaults (topo : List (String × Val)) (files : List (Option (List (String × Val))))
    (env : List (List String × Val)) : Option (List (String × Val)) :=
  includeEnvironment env (files.foldl includeDefaults topo)

/-- `merge_plugin_defaults`: `netsim/augment/plugin.py:28-40`.  Copy requests
(`process_copy_requests`) are not modelled. -/
def mergePluginDefaults (plugin : List (String × Val)) (topo : List (String × Val)) :
    List (String × Val) :=
  if plugin = [] then topo
  else match plugin.lookup "important" with
    | some (.dict imp) => mergeDict (mergeDict (popKey plugin "important") topo) imp
    | _ => mergeDict (popKey plugin "important") topo

/-- `remove_null_values`: `netsim/data/__init__.py:64-69` -/
def removeNull : List (String × Val) → List (String × Val)
  | [] => []
  | (_, .null) :: r => removeNull r
  | (k, .dict d) :: r => (k, .dict (removeNull d)) :: removeNull r
  | (k, v) :: r => (k, v) :: removeNull r

/-- Device settings: the `parent` attribute and everything else
(`netsim/topology-defaults.yml`, `devices` dictionary; `netsim/augment/devices.py:120-129`) -/
structure Device where
  parent : Option String
  data : List (String × Val)

/-- `devices[name]`; a missing device is an empty dictionary
(`netsim/augment/devices.py:120`, the data is a `default_box`). -/
def getDevice (devs : List (String × Device)) (name : String) : Device :=
  (devs.lookup name).getD ⟨none, []⟩

/-- `process_child_device`: `netsim/augment/devices.py:119-131`.  The first argument limits the
depth of the recursion, the result is `none` when it's exceeded. -/
def childDevice : Nat → String → List (String × Device) → Option (List (String × Device))
  | 0, _, _ => none
  | fuel + 1, name, devs =>
    match (getDevice devs name).parent with
    | none => some devs
    | some p =>
      match childDevice fuel p (setKey devs name ⟨none, (getDevice devs name).data⟩) with
      | none => none
      | some devs =>
        some (setKey devs name ⟨none, removeNull (mergeDict
          (popKey (getDevice devs p).data "template") (getDevice devs name).data)⟩)

/-- The loop in `process_device_inheritance`: `netsim/augment/devices.py:133-136` -/
def inheritLoop (fuel : Nat) : List String → List (String × Device) →
    Option (List (String × Device))
  | [], devs => some devs
  | n :: r, devs => match childDevice fuel n devs with
    | none => none
    | some devs => inheritLoop fuel r devs

/-- `process_device_inheritance`: `netsim/augment/devices.py:133-136`.  The recursion cannot be
deeper than the number of devices plus one (theorem `C43_terminates`). -/
def deviceInheritance (devs : List (String × Device)) : Option (List (String × Device)) :=
  inheritLoop (devs.length + 1) (devs.map (·.1)) devs

end Netlab
