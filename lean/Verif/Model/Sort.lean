/-!
# Dependency sort and its users (`netsim/utils/sort.py`, `netsim/modules/__init__.py`,
`netsim/augment/plugin.py`)
-/

namespace Netlab

/-- One pass over the remaining objects (`netsim/utils/sort.py:29-35`): an object is skipped
when one of its dependencies is in `mods`, the list at the start of the pass.  Returns
skipped objects and objects added to the output. -/
def depRound (dep : String → List String) (mods : List String) :
    List String → List String × List String
  | [] => ([], [])
  | m :: ms =>
    let (sk, out) := depRound dep mods ms
    if (dep m).any (fun r => mods.contains r) then (m :: sk, out) else (sk, m :: out)

/-- The `while` loop of `netsim/utils/sort.py:28-41` (`dependency`); `w` is the watchdog counter,
`none` is the fatal error raised when the counter becomes negative. -/
def depLoop (dep : String → List String) : Nat → List String → List String → Option (List String)
  | w, mods, out =>
    if mods.isEmpty then some out
    else
      let (sk, o) := depRound dep mods mods
      match w with
      | 0 => none
      | w + 1 => depLoop dep w sk (out ++ o)

/-- `netsim/utils/sort.py:22-43` (`dependency`) -/
def depSort (mods : List String) (dep : String → List String) : Option (List String) :=
  if mods.length < 2 then some mods else depLoop dep mods.length mods []

/-- Module attributes used for sorting and dependency checks
(`netsim/modules/__init__.py:381-383`): `requires` and `config_after`/`transform_after`. -/
structure ModDef where
  requires : List String
  after : List String
  deriving Repr

/-- `netsim/modules/__init__.py:381-383` (`sort_module_list`); the system defaults are reduced to
a function from names to module attributes (`none` = not in the defaults). -/
def sortModuleList (mods : List String) (params : String → Option ModDef) : Option (List String) :=
  depSort (mods.filter (fun m => (params m).isSome))
    (fun m => match params m with | some d => d.requires ++ d.after | none => [])

/-- `netsim/augment/plugin.py:118-130` (`sort_plugins`): plugin names; `req p` and `after p` are the
`_requires` and `_execute_after` lists of the plugin. -/
def sortPlugins (plugins : List String) (req after : String → List String) :
    Option (List String) :=
  if plugins.isEmpty then some [] else depSort plugins (fun p => req p ++ after p)

/-- `netsim/augment/plugin.py:140-152` (`find_preceding_configs`): `nodes` are the `config` lists of
nodes (an empty list for a node without the attribute). -/
def precedingConfigs (nodes : List (List String)) (c : String) : List String :=
  nodes.flatMap (fun cfg => if cfg.contains c then cfg.take (cfg.idxOf c) else [])

/-- `netsim/augment/plugin.py:161-174` (`sort_extra_config`).  The order in which Python lists a
set is not specified, so the list of all custom configurations `extra` (each of them once)
is a parameter. -/
def sortExtraConfig (nodes : List (List String)) (extra : List String) : Option (List String) :=
  if extra.isEmpty then some [] else depSort extra (precedingConfigs nodes)

end Netlab
