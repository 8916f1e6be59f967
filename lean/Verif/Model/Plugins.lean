import Verif.Model.Sort
/-!
# Plugins (`netsim/augment/plugin.py`)

Plugin files are an oracle: `files path name` is the plugin found in the directory (its defaults are merged with `mergePlugin`, see `Model/Settings.lean`).
A Python file that cannot be loaded is a fatal error, and is left out.
-/

namespace Netlab

/-- The `_requires` attribute of a plugin (`netsim/augment/plugin.py:226-233`): a list, or something else -/
inductive PgReq where
  | list (l : List String)
  | bad
  deriving DecidableEq, Repr

/-- A plugin module: its identity (Python file), `_requires` and `_execute_after` attributes (`netsim/augment/plugin.py:125-129`) and the names of its functions -/
structure PgMod where
  file : String
  requires : Option PgReq := none
  after : List String := []
  hooks : List String := []
  deriving DecidableEq, Repr

/-- A plugin file: the module and the plugin it's redirected to (`netsim/augment/plugin.py:87-90`) -/
structure PgFile where
  mod : PgMod
  redirect : Option String := none
  deriving DecidableEq, Repr

/-- `netsim/augment/plugin.py:42-106` (`load_plugin_from_path`): the module and the changed list of plugins; `none` is a crash (`depth` is the Python recursion limit). -/
def pgLoad (files : String → String → Option PgFile) : Nat → String → String → List String → Option (Option PgMod × List String)
  | 0, _, _, _ => none
  | depth + 1, path, name, plugins =>
    match files path name with
    | none => some (none, plugins)
    | some f =>
      match f.redirect with
      | some r => pgLoad files depth path r (plugins.map (fun p => if p = name then r else p))
      | none => some (some f.mod, plugins)

/-- The loop over the search path (`netsim/augment/plugin.py:195-198`) -/
def pgSearch (files : String → String → Option PgFile) (depth : Nat) : List String → String → List String → Option (Option PgMod × List String)
  | [], _, plugins => some (none, plugins)
  | p :: r, name, plugins =>
    match pgLoad files depth p name plugins with
    | none => none
    | some (some m, pl) => some (some m, pl)
    | some (none, pl) => pgSearch files depth r name pl

/-- The loop over plugins (`netsim/augment/plugin.py:194-207`): names of plugins, loaded plugins, number of errors; `none` is a crash. -/
def pgAll (files : String → String → Option PgFile) (depth : Nat) (paths : List String) : List String → List String → Option (List String × List PgMod × Nat)
  | [], plugins => some (plugins, [], 0)
  | n :: r, plugins =>
    match pgSearch files depth paths n plugins with
    | none => none
    | some (m, pl) =>
      match pgAll files depth paths r pl with
      | none => none
      | some (pl', ms, e) =>
        match m with
        | some m => some (pl', m :: ms, e)
        | none => some (pl', ms, e + 1)

/-- The module with the specified name: the last one wins (`netsim/augment/plugin.py:121-123`) -/
def pgMap (names : List String) (mods : List PgMod) (n : String) : Option PgMod := ((names.zip mods).reverse).lookup n

/-- Dependencies of a plugin (`netsim/augment/plugin.py:128`) -/
def pgDeps (m : Option PgMod) : List String :=
  match m with
  | some m => (match m.requires with
      | some (.list l) => l
      | _ => []) ++ m.after
  | none => []

/-- `netsim/augment/plugin.py:117-130` (`sort_plugins`): `none` is a crash (a dependency loop, or `_requires` that is not a list). -/
def pgSort (names : List String) (mods : List PgMod) : Option (List String × List PgMod) :=
  if names.isEmpty then some (names, mods)
  else if decide (2 ≤ names.length) && names.any (fun n => (pgMap names mods n).any (fun m => m.requires == some .bad)) then none
  else (depSort names (fun n => pgDeps (pgMap names mods n))).map (fun s => (s, s.filterMap (pgMap names mods)))

/-- `netsim/augment/plugin.py:183-215` (`init`): names of plugins, plugins, and the number of errors; `none` is a crash. -/
def pgInit (files : String → String → Option PgFile) (depth : Nat) (paths plugins defaults : List String) : Option (List String × List PgMod × Nat) :=
  match pgAll files depth paths (plugins ++ defaults) (plugins ++ defaults) with
  | none => none
  | some (names, mods, e) =>
    if e > 0 then some (names, mods, e)
    else (pgSort names mods).map (fun r => (r.1, r.2, 0))

/-- `netsim/augment/plugin.py:225-241` (`plugin_requires_check`): the number of errors -/
def pgRequires (names modules : List String) (m : PgMod) : Nat :=
  match m.requires with
  | none => 0
  | some .bad => 1
  | some (.list l) => (l.filter (fun d => !names.contains d && !modules.contains d)).length

/-- `netsim/augment/plugin.py:243-245` (`check_plugin_dependencies`): the number of errors -/
def pgCheck (names modules : List String) (mods : List PgMod) : Nat := (mods.map (pgRequires names modules)).sum

/-- `netsim/augment/plugin.py:254-266` (`execute`); `func m action` is the function of the plugin that changes the topology. -/
def pgExecute {S : Type} (func : PgMod → String → S → S) (action : String) (mods : List PgMod) (s : S) : S :=
  mods.foldl (fun s m => if m.hooks.contains action then func m action s else s) s

end Netlab
