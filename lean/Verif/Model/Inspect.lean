import Verif.Model.Outputs
/-!
# `netlab inspect` and `netlab show attributes` (`netsim/cli/inspect.py`, `netsim/cli/show_commands/attributes.py`)
-/

namespace Netlab

/-- What the YAML output module did (`netsim/outputs/yaml.py:22-71`): the name of the output file (`-` is standard output), was there
an error message, the displayed or stored value (`none` is a fatal error after the output file was opened) -/
structure YamlOut where
  file : List Char
  error : Bool
  value : Option Val
  deriving DecidableEq

/-- `netsim/outputs/yaml.py:22-71` (`YAML.write`); `filename` is the file name in the settings of the output module.  The directory is
not locked, and the file can be written; `topo` is the cleaned-up topology (`netsim/outputs/yaml.py:33`). -/
def yamlWrite (eval : String → List (String × Val) → Option Val) (filename : Option (List Char)) (spec : OutSpec)
    (topo : List (String × Val)) : YamlOut :=
  let value := yamlFormats eval topo (spec.format.map String.ofList)
  match spec.filenames with
  | some l => ⟨l.headD [], l.length > 1, value⟩
  | none => ⟨filename.getD ['-'], false, value⟩

/-- `netsim/cli/inspect.py:50-57` (`inspect_value`); the key of the settings is not a formatted text, so there are no settings. -/
def inspectValue (eval : String → List (String × Val) → Option Val) (fmt expr : List Char) (topo : List (String × Val)) : YamlOut :=
  let m := if fmt.isEmpty then "yaml".toList else fmt
  let e := if expr.isEmpty then ['.'] else expr
  yamlWrite eval none (parseOutput (m ++ ':' :: e)) topo

/-- `settings.attributes` (`netsim/cli/show_commands/attributes.py:34`): an empty dictionary when it does not exist -/
def attrTable (s : List (String × Val)) : List (String × Val) :=
  match s.lookup "attributes" with
  | some (.dict d) => d
  | _ => []

/-- Names in a list (`netsim/cli/show_commands/attributes.py:37`, 54) -/
def attrNames : Option Val → List String
  | some (.list l) => l.filterMap (fun v => match v with
    | .str s => some s
    | _ => none)
  | _ => []

/-- `show_commands/attributes.py` (`netsim/cli/show_commands/attributes.py:38-42`): the dictionary that has attributes; `none` is a
fatal error.  A module is a dictionary. -/
def attrScope (settings : List (String × Val)) (module : String) : Option (List (String × Val)) :=
  if module = "" then some settings
  else match settings.lookup module with
    | some (.dict m) => if (m.lookup "attributes").isSome then some m else none
    | _ => none

/-- `netsim/cli/show_commands/attributes.py:32-58` (`get_attribute_subset`) -/
def attrSubset (settings : List (String × Val)) (module kind : String) : Option Val :=
  if kind = "" ∧ module = "" then some (.dict (attrTable settings))
  else match attrScope settings module with
    | none => none
    | some s =>
      if kind = "" then some (.dict ((attrTable s).filter (fun p => p.2.isDict)))
      else match (attrTable s).lookup kind with
        | none => none
        | some v =>
          if kind = "interface" then
            let link := match (attrTable s).lookup "link" with
              | some (.dict l) => l
              | _ => []
            match v with
            | .dict d => some (.dict (mergeDict (link.filter (fun p =>
                !(attrNames ((attrTable settings).lookup "link_no_propagate")).contains p.1)) d))
            | _ => none
          else some v

end Netlab
