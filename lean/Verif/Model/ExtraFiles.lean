import Verif.Model.FileMap
import Verif.Model.Files
/-!
# Files generated for containers (`netsim/providers/__init__.py:49-71,146-186`, `netsim/providers/clab.py:113-117,183-196`) and configuration files in
archives of containerlab labs (`netsim/cli/clab_actions/tarball.py:48-82`)
-/

namespace Netlab

/-- The attributes of a node used in `netsim/providers/__init__.py:49-71`: `device`, `config`, `_daemon`, `_daemon_parent`, and its name -/
structure XtNode where
  name : String
  device : String
  config : List String
  daemon : Bool
  parent : Option String

/-- Directories used in `netsim/providers/__init__.py:51,56,61`: `defaults.paths.custom.dirs`, `defaults.paths.templates.dirs`, the templates of the provider
and the `daemons` directory of the package -/
structure XtPaths where
  custom : List String
  templates : List String
  provider : String
  daemons : String

/-- `path_prefix` (`netsim/providers/__init__.py:50-61`) -/
def xtPrefix (P : XtPaths) (n : XtNode) (f : String) : List String :=
  if n.config.contains f then P.custom
  else P.templates ++ [P.provider] ++ (if n.daemon then [P.daemons] else [])

/-- `path_suffix` (`netsim/providers/__init__.py:50-60`) -/
def xtSuffix (n : XtNode) (f : String) : List String :=
  if n.config.contains f then [f]
  else n.device :: (if n.daemon then n.parent.toList else [])

/-- `netsim/providers/__init__.py:49-71` (`find_extra_template`); debugging printouts are not modelled. -/
def xtFind (fs : Fs) (P : XtPaths) (n : XtNode) (f : String) : Option String :=
  findFile fs ((if n.config.contains f then n.device else f) ++ ".j2") ((xtPrefix P n f).flatMap (fun pf => (xtSuffix n f).map (fun sf => pf ++ "/" ++ sf)))

/-- A generated file (`netsim/providers/__init__.py:173-183`): the file, its template and the target in the container -/
structure XtFile where
  out : String
  template : String
  target : String
deriving DecidableEq, Repr

/-- `out_folder` (`netsim/providers/__init__.py:140,158`) of the containerlab provider -/
def xtFolder (n : XtNode) : String := "clab_files/" ++ n.name

/-- The loop in `netsim/providers/__init__.py:161-186`: the generated files and the number of errors.  Rendering a template succeeds (errors end the program). -/
def xtLoop (fs : Fs) (P : XtPaths) (n : XtNode) : List (String × String) → List XtFile × Nat
  | [] => ([], 0)
  | p :: r =>
    if !subStr (xtFolder n).toList p.1.toList then xtLoop fs P n r
    else
      match xtFind fs P n (strReplace (xtFolder n ++ "/") "" p.1) with
      | some t => (⟨xtFolder n ++ "/" ++ strReplace (xtFolder n ++ "/") "" p.1, t, p.2⟩ :: (xtLoop fs P n r).1, (xtLoop fs P n r).2)
      | none => ((xtLoop fs P n r).1, (xtLoop fs P n r).2 + 1)

/-- `netsim/providers/__init__.py:146-186` (`create_extra_files`), called in `netsim/providers/clab.py:190-196` (`post_configuration_create`) for nodes with file
mappings: generated files and number of errors; `none` is an exception. -/
def xtCreate (fs : Fs) (P : XtPaths) (n : XtNode) (binds : List String) : Option (List XtFile × Nat) :=
  if binds.isEmpty then some ([], 0) else (fmDict binds).map (xtLoop fs P n)

/-- `netsim/providers/clab.py:183-188` (`node_post_transform`) followed by `netsim/providers/clab.py:190-196` (`post_configuration_create`) for normalized
templates and mappings of a node: final mappings, generated files and number of errors in both steps -/
def xtRun (fs : Fs) (P : XtPaths) (n : XtNode) (templates binds : List String) : Option (List String × List XtFile × Nat) :=
  match fmExtra (fun f => (xtFind fs P n f).isSome) (xtFolder n) templates binds with
  | none => none
  | some (b, e) => (xtCreate fs P n b).map (fun r => (b, r.1, e + r.2))

/-- `netsim/cli/clab_actions/tarball.py:48-55` (`find_config_file`) -/
def tbFind (n : String) : List String → Option String
  | [] => none
  | f :: r => if f = n then some f else if (n ++ ".").toList.isPrefixOf f.toList then some f else tbFind n r

/-- The body of the loop in `netsim/cli/clab_actions/tarball.py:71-76` -/
def tbNode (configs : String) (files : List String) (p : String × List (String × Val)) : String × List (String × Val) :=
  match tbFind p.1 files with
  | some f => if (configs ++ "/" ++ f).isEmpty then p else (p.1, setKey p.2 "startup-config" (.str (configs ++ "/" ++ f)))
  | none => p

/-- `netsim/cli/clab_actions/tarball.py:57-82` (`clab_config_adjust`): the nodes in the new configuration file; `none` is a fatal error.  Errors in reading files
are not modelled; the YAML texts are equal when the data are equal. -/
def tbAdjust (configs : String) (files : List String) (nodes : List (String × List (String × Val))) : Option (List (String × List (String × Val))) :=
  if nodes.map (tbNode configs files) = nodes then none else some (nodes.map (tbNode configs files))

end Netlab
