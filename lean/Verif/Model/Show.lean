import Verif.Model.Box
import Verif.Model.Vtep
/-!
# `netlab show` commands (`netsim/cli/show_commands`)

The result of a command is the data that's printed: rows of a table, lines of text, or the YAML dictionary.  Table layout
(padding, centered text, headings and legends) is left out.  Names of devices, modules and providers are keys of dictionaries
and therefore unique, so `sorted` is modelled with `sortedSet`.
-/

namespace Netlab

/-- A device in system defaults (`netsim/cli/show_commands/devices.py:22-38`, `netsim/cli/show_commands/images.py:32-34`,
`netsim/cli/show_commands/module_support.py:41`): description (an empty dictionary is used when there's none), is it a daemon and
its parent, images for providers, features for modules -/
structure ShDev where
  name : String
  description : Option String := none
  daemon : Bool := false
  parent : String := ""
  images : List (String × String) := []
  features : List (String × Val) := []
  deriving DecidableEq

/-- A module in system defaults (`netsim/cli/show_commands/__init__.py:50-57`): the list of devices and features -/
structure ShMod where
  name : String
  supported : List String
  features : List (String × Val) := []
  deriving DecidableEq

/-- `DEVICES_TO_SKIP` (`netsim/cli/show_commands/__init__.py:10`) -/
def shSkip : List String := ["none", "unknown"]

/-- Is the device displayed (`netsim/cli/show_commands/devices.py:24-28`)?  The default value of the argument is `*`
(`netsim/cli/show_commands/__init__.py:12-18`). -/
def shWanted (arg : String) (d : String) : Bool :=
  !shSkip.contains d && !(d != arg && arg != "*")

/-- Names of displayed devices (`netsim/cli/show_commands/devices.py:22-28`, the same loop is in
`netsim/cli/show_commands/images.py:24-29` and `netsim/cli/show_commands/module_support.py:26-31`) -/
def shDevices (devs : List ShDev) (arg : String) : List String :=
  (sortedSet (devs.map (·.name))).filter (shWanted arg)

/-- `settings.devices[device]` (`netsim/cli/show_commands/devices.py:23`) -/
def shDev (devs : List ShDev) (n : String) : ShDev := (devs.find? (fun d => d.name == n)).getD { name := n }

/-- What's displayed for a device (`netsim/cli/show_commands/devices.py:30-38`) -/
inductive ShDescr where
  | plain (d : Option String)
  | daemon (d : Option String) (parent : String)
  deriving DecidableEq

/-- `netsim/cli/show_commands/devices.py:30-36` -/
def shDescr (d : ShDev) : ShDescr :=
  if d.daemon then .daemon d.description d.parent else .plain d.description

/-- The YAML result of `netlab show devices` (`netsim/cli/show_commands/devices.py:22-38`, 49-50) -/
def showDevices (devs : List ShDev) (arg : String) : List (String × ShDescr) :=
  (shDevices devs arg).map (fun n => (n, shDescr (shDev devs n)))

/-- The table of devices (`netsim/cli/show_commands/devices.py:43`): descriptions must be strings. -/
def showDevTable (devs : List ShDev) (arg : String) : List (String × String) :=
  (showDevices devs arg).filterMap (fun p => match p.2 with
    | .plain (some s) => some (p.1, s)
    | _ => none)

/-- The table of daemons (`netsim/cli/show_commands/devices.py:44-47`) -/
def showDaemonTable (devs : List ShDev) (arg : String) : List (String × Option String) :=
  (showDevices devs arg).filterMap (fun p => match p.2 with
    | .daemon d _ => some (p.1, d)
    | _ => none)

/-- The table printed by `netlab show images` (`netsim/cli/show_commands/images.py:19-39`): rows with images for all providers
apart from `external`; an image that's not set is an empty text. -/
def showImages (provs : List String) (devs : List ShDev) (arg : String) : List (String × List (String × String)) :=
  (shDevices devs arg).map (fun n =>
    (n, (provs.filter (· != "external")).map (fun p => (p, ((shDev devs n).images.lookup p).getD ""))))

/-- `get_modlist` (`netsim/cli/show_commands/__init__.py:50-57`); `none` is a fatal error. -/
def shModlist (mods : List ShMod) : Option String → Option (List String)
  | some m => match mods.find? (fun x => x.name == m) with
    | some x => if x.supported.isEmpty then none else some [m]
    | none => none
  | none => some (sortedSet (mods.map (·.name)))

/-- `device in settings[m].supported_on` (`netsim/cli/show_commands/module_support.py:36`) -/
def shSupports (mods : List ShMod) (m d : String) : Bool :=
  match mods.find? (fun x => x.name == m) with
  | some x => x.supported.contains d
  | none => false

/-- The table printed by `netlab show module-support` (`netsim/cli/show_commands/module_support.py:19-38`): module names and rows
with marks -/
def supportTable (mods : List ShMod) (devs : List ShDev) (arg : String) (m : Option String) :
    Option (List String × List (String × List Bool)) :=
  (shModlist mods m).map (fun l => (l, (shDevices devs arg).map (fun d => (d, l.map (fun x => shSupports mods x d)))))

/-- Lines printed by `netlab show module-support --format text` (`netsim/cli/show_commands/module_support.py:40`, 49-50) -/
def supportText (mods : List ShMod) (devs : List ShDev) (arg : String) (m : Option String) :
    Option (List (String × List String)) :=
  (shModlist mods m).map (fun l => (shDevices devs arg).map (fun d => (d, l.filter (fun x => shSupports mods x d))))

/-- The value printed for the features of a device (`netsim/cli/show_commands/module_support.py:43-45`) -/
def shFeature (d : ShDev) (m : String) : Val :=
  match d.features.lookup m with
  | none => .bool true
  | some .null => .bool true
  | some (.dict []) => .bool true
  | some v => v

/-- The loop that adds modules of a device to the result (`netsim/cli/show_commands/module_support.py:42-46`) -/
def supportAdd (d : ShDev) (l : List String) (acc : List (String × Val)) : List (String × Val) :=
  l.foldl (fun a m => setKey a m (shFeature d m)) acc

/-- The dictionary printed by `netlab show module-support --format yaml` (`netsim/cli/show_commands/module_support.py:25-48`).  The
condition in line 41 is true: no device is displayed when the value of the argument is empty. -/
def supportYaml (mods : List ShMod) (devs : List ShDev) (arg : String) (m : Option String) : Option (List (String × Val)) :=
  (shModlist mods m).map (fun l => (shDevices devs arg).foldl (fun acc n =>
    supportAdd (shDev devs n) (l.filter (fun x => shSupports mods x n)) acc) [])

/-- Modules displayed by `netlab show modules` (`netsim/cli/show_commands/modules.py:84-87`) -/
def showModlist (mods : List ShMod) (m : Option String) : Option (List String) :=
  if m = some "initial" then some ["initial"] else shModlist mods m

/-- Devices supporting a module (`netsim/cli/show_commands/modules.py:117-120`) -/
def showModDevs (mods : List ShMod) (devs : List ShDev) (m : String) : List String :=
  (if m = "initial" then devs.map (·.name)
   else ((mods.find? (fun x => x.name == m)).map (·.supported)).getD []).filter (fun d => !shSkip.contains d)

/-- Lines printed by `netlab show modules --format text` (`netsim/cli/show_commands/modules.py:116-123`); the table without a
module argument has the same content (`netsim/cli/show_commands/modules.py:126-130`). -/
def showModText (mods : List ShMod) (devs : List ShDev) (m : Option String) : Option (List (String × List String)) :=
  (showModlist mods m).map (fun l => l.map (fun x => (x, showModDevs mods devs x)))

/-- The dictionary printed by `netlab show modules --format yaml` without a module argument
(`netsim/cli/show_commands/modules.py:142-143`): `settings[m].dev_list` is an attribute of system defaults that does not exist
(an empty dictionary). -/
def showModYaml (mods : List ShMod) : Option (List (String × Val)) :=
  (showModlist mods none).map (fun l => l.map (fun m => (m, .dict [])))

/-- `settings.devices[d].features[m]` (`netsim/cli/show_commands/modules.py:134`) -/
def shDevFeatures (devs : List ShDev) (d m : String) : Val := ((shDev devs d).features.lookup m).getD (.dict [])

/-- Features selected with `--feature` (`netsim/cli/show_commands/modules.py:138-142`); `none` is the exception raised when the
features of the device are not a dictionary (a list or a text, not used in device definitions, is reduced to the same exception).
-/
def shOnly (f : Option String) (v : Val) : Option Val :=
  match f with
  | none => some v
  | some f => match v with
    | .dict d => match d.lookup f with
      | some w => some (.dict [(f, w)])
      | none => some (.dict [])
    | _ => none

/-- The dictionary printed by `netlab show modules --module m --format yaml` when the module has features
(`netsim/cli/show_commands/modules.py:132-142`) -/
def showFeatYaml (mods : List ShMod) (devs : List ShDev) (m : String) (f : Option String) : Option (List (String × Val)) :=
  (showModDevs mods devs m).mapM (fun d => (shOnly f (shDevFeatures devs d m)).map (fun v => (d, v)))

/-- `get_feature_list` (`netsim/cli/show_commands/modules.py:24-32`): only the last key is in the prefix. -/
def featureList (pfx : String) : List (String × Val) → List String
  | [] => []
  | (k, .dict d) :: r => featureList (k ++ ".") d ++ featureList pfx r
  | (k, .null) :: r => (pfx ++ k) :: featureList pfx r
  | (k, .bool _) :: r => (pfx ++ k) :: featureList pfx r
  | (k, .int _) :: r => (pfx ++ k) :: featureList pfx r
  | (k, .str _) :: r => (pfx ++ k) :: featureList pfx r
  | (k, .list _) :: r => (pfx ++ k) :: featureList pfx r

/-- The text in the table of features (`netsim/cli/show_commands/modules.py:51-60`).  `str` is the conversion to text. -/
def featureCell (str : Val → String) : Option Val → String
  | none => ""
  | some .null => ""
  | some (.bool b) => if b then "x" else ""
  | some (.list l) => ",".intercalate (l.map str)
  | some (.dict d) => ",".intercalate (d.map (·.1))
  | some v => str v

end Netlab
