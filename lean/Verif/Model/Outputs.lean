import Verif.Model.Nodeset
import Verif.Model.Box
/-!
# Output modules (`netsim/outputs`, `netsim/cli/create.py`)

Output specifications are lists of characters.
-/

namespace Netlab

/-- `netsim/outputs/__init__.py:38-48`: output module, formats, file names (if specified) -/
structure OutSpec where
  output : List Char
  format : List (List Char)
  filenames : Option (List (List Char))
  deriving Repr, DecidableEq

/-- `netsim/outputs/__init__.py:41-48` (`_TopologyOutput.__init__`) -/
def parseOutput (s : List Char) : OutSpec :=
  let parts := splitOnChar '=' s
  let l := splitOnChar ':' (parts.headD [])
  { output := l.headD [], format := l.tail, filenames := parts.tail.head?.map (splitOnChar ',') }

/-- `re.split(':|=',output)[0]` (`netsim/outputs/__init__.py:52`): the name of the module that's loaded -/
def outputModule (s : List Char) : List Char := s.takeWhile (fun c => c != ':' && c != '=')

/-- `output_format.split(':')[0]` (`netsim/cli/create.py:91`): the key used to get the settings of the output module -/
def outputSettings (s : List Char) : List Char := (splitOnChar ':' s).headD []

/-- What happened (`netsim/cli/create.py:90-97`): output modules that were executed, number of errors, and was the program terminated
by `log.exit_on_error` -/
structure OutRun where
  done : List (List Char)
  errors : Nat
  stopped : Bool
  deriving Repr, DecidableEq

/-- The loop in `netsim/cli/create.py:90-97`; `known` says whether there's such an output module, `write` is the number of errors it
reports, `errors` is the number of errors reported so far. -/
def createOutputs (known : List Char → Bool) (write : List Char → Nat) (errors : Nat) : List (List Char) → OutRun
  | [] => ⟨[], errors, false⟩
  | s :: r =>
    if known (outputModule s) then
      if errors + write s = 0 then
        let x := createOutputs known write 0 r
        { x with done := s :: x.done }
      else ⟨[s], errors + write s, true⟩
    else createOutputs known write (errors + 1) r

/-- `netsim/outputs/yaml.py:39-51`: formats of the YAML output module.  `eval` is Python `eval`; `none` is an exception or a fatal
error. -/
def yamlFormats (eval : String → List (String × Val) → Option Val) (topo : List (String × Val)) : List String → Option Val
  | [] => some (.dict topo)
  | f :: r =>
    if f = "nodefault" then
      if (topo.lookup "defaults").isSome then yamlFormats eval (popKey topo "defaults") r else none
    else if f = "noaddr" then
      if (topo.lookup "addressing").isSome then yamlFormats eval (popKey topo "addressing") r else none
    else if f = "." then some (.dict topo)
    else eval f topo

/-- Configuration of an external tool (`netsim/outputs/tools.py:34-58`) -/
structure ToolCfg where
  dest : Option String
  render : Option String
  template : Option String
  deriving Repr, DecidableEq

/-- Result: files with their content, errors, fatal error (`netsim/outputs/tools.py:34-64`) -/
structure ToolFiles where
  files : List (String × String)
  errors : Nat
  fatal : Bool
  deriving Repr, DecidableEq

/-- The loop in `netsim/outputs/tools.py:34-64` (`create_tool_config`).  `render` is the result of the tool-specific output module
(`netsim/outputs/tools.py:16-22`), if there's one; `tmpl` is the result of a template (an exception is a fatal error); files are
written without errors (an error would be fatal, `netsim/utils/files.py:164-188`). -/
def toolFiles (tool : String) (render : Option (String → String)) (tmpl : String → Option String) : List ToolCfg → ToolFiles
  | [] => ⟨[], 0, false⟩
  | c :: r =>
    match c.dest with
    | none =>
      let x := toolFiles tool render tmpl r
      { x with errors := x.errors + 1 }
    | some d =>
      match c.render with
      | some f =>
        let x := toolFiles tool render tmpl r
        match render with
        | some g => { x with files := (tool ++ "/" ++ d, g f) :: x.files }
        | none => { x with files := (tool ++ "/" ++ d, "") :: x.files, errors := x.errors + 1 }
      | none =>
        match c.template with
        | some t =>
          match tmpl t with
          | some text =>
            let x := toolFiles tool render tmpl r
            { x with files := (tool ++ "/" ++ d, text) :: x.files }
          | none => ⟨[], 0, true⟩
        | none =>
          let x := toolFiles tool render tmpl r
          { x with errors := x.errors + 1 }

end Netlab
