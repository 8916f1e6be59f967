import Verif.Model.Settings
import Verif.Model.Asn
import Verif.Model.Nodeset
import Verif.Model.Evpn
/-!
# Reading the lab topology: versions, included files, CLI arguments (`netsim/utils/versioning.py`, `netsim/utils/read.py`)
-/

namespace Netlab

/-- The `packaging` library (`netsim/utils/versioning.py:11`): parsing, comparison and printing of versions, and parsing of version specifiers.
`le` is the comparison used by the `>=` specifier. -/
structure PyVersions (V : Type) where
  parse : String → Option V
  le : V → V → Bool
  render : V → String
  specifier : String → Option (V → Bool)

/-- `kw in version_string` (`netsim/utils/versioning.py:27-28`) -/
def verHasOp (s : String) : Bool := s.toList.any (fun c => c == '=' || c == '>' || c == '<')

/-- `netsim/utils/versioning.py:23-35` (`get_version_specifier`) -/
def verSpec {V : Type} (lib : PyVersions V) (s : String) : Option (V → Bool) :=
  if verHasOp s then lib.specifier s
  else (lib.parse s).map (fun v x => lib.le v x)

/-- The outcome of a check that can terminate netlab with an error message (`netsim/utils/versioning.py:56-66`) -/
inductive VerResult where
  | accepted
  | invalid
  | tooOld
  deriving DecidableEq, Repr

/-- `netsim/utils/versioning.py:50-66` (`check_topology_version`); an empty version string is no version. -/
def verCheck {V : Type} (lib : PyVersions V) (current : V) (topo defaults : Option String) : VerResult :=
  match (topo.filter (· != "")).or (defaults.filter (· != "")) with
  | none => .accepted
  | some s =>
    match verSpec lib s with
    | none => .invalid
    | some p => if p current then .accepted else .tooOld

/-- An iteration over candidates (`netsim/utils/versioning.py:82-98`): the best version so far; `none` is a fatal error or a crash (a version specifier is not a version). -/
def verStep {V : Type} (lib : PyVersions V) (current : V) (best : Option V) (c : String) : Option (Option V) :=
  match verSpec lib c with
  | none => none
  | some p =>
    if !p current then some best
    else
      match best with
      | none => (lib.parse c).map some
      | some b => if p b then some (some b) else (lib.parse c).map some

/-- The loop over candidates (`netsim/utils/versioning.py:81-98`); candidates are the parts of file names between the stem and the suffix. -/
def verBest {V : Type} (lib : PyVersions V) (current : V) : List String → Option V → Option (Option V)
  | [], best => some best
  | c :: r, best =>
    match verStep lib current best c with
    | none => none
    | some b => verBest lib current r b

/-- The name of a versioned file (`netsim/utils/versioning.py:103`) -/
def verFile (stem suffix version : String) : String := stem ++ "." ++ version ++ suffix

/-- `netsim/utils/versioning.py:71-107` (`get_versioned_topology`): the file name of the selected topology; `versions` are versions of the files in the directory of the topology
(in any order: `glob` does not sort them), the glob selects those with a dot. -/
def verTopology {V : Type} (lib : PyVersions V) (current : V) (stem suffix : String) (versions : List String) : Option String :=
  match verBest lib current (versions.filter (fun v => v.toList.contains '.')) none with
  | none => none
  | some none => some (stem ++ suffix)
  | some (some b) => some (verFile stem suffix (lib.render b))

/-- Settings added outside of the include scope (`netsim/utils/read.py:67-71`) -/
def incTop1 (d : List (String × Val)) (p : String × Val) : List (String × Val) :=
  match d.lookup p.1, p.2 with
  | none, v => setKey d p.1 v
  | some (.dict x), .dict y => setKey d p.1 (.dict (mergeDict x y))
  | some _, _ => d

/-- The contents of an included file (`netsim/utils/read.py:66-76`): the `_top` settings, and the rest; `none` is a crash (reported as an error reading the file) when `_top` is not a dictionary. -/
def incFile (d : List (String × Val)) (stem : String) (c : List (String × Val)) : Option (List (String × Val)) :=
  match c.lookup "_top" with
  | none => some (setKey d stem (.dict c))
  | some (.dict t) => some (setKey (t.foldl incTop1 d) stem (.dict (popKey c "_top")))
  | some _ => none

/-- The loop over included files (`netsim/utils/read.py:60-76`) -/
def incFiles : List (String × List (String × Val)) → List (String × Val) → Option (List (String × Val))
  | [], d => some d
  | (stem, c) :: r, d =>
    match incFile d stem c with
    | none => none
    | some d => incFiles r d

/-- Find and read included files (`netsim/utils/read.py:49-64`): names and contents of the files; `none` is a fatal error.  `glob name` are the (sorted) names of files (without the suffix) matching
the pattern together with their contents (`none`: the file cannot be read).  The names in `_include` must be strings. -/
def incNames (glob : String → List (String × Option (List (String × Val)))) : List Val → Option (List (String × List (String × Val)))
  | [] => some []
  | .str n :: r =>
    if (glob n).isEmpty then none
    else
      match (glob n).mapM (fun f => f.2.map (fun c => (f.1, c))), incNames glob r with
      | some a, some b => some (a ++ b)
      | _, _ => none
  | _ :: _ => none

/-- Includes in a single dictionary (`netsim/utils/read.py:41-78`); `_include` must be a list. -/
def incLevel (glob : String → List (String × Option (List (String × Val)))) (d : List (String × Val)) : Option (List (String × Val)) :=
  match d.lookup "_include" with
  | none => some d
  | some (.list l) =>
    match incNames glob l with
    | none => none
    | some fs => (incFiles fs d).map (fun d => popKey d "_include")
  | some _ => none

mutual
/-- `netsim/utils/read.py:33-78` (`include_yaml`); `none` is a fatal error. -/
def incVal (glob : String → List (String × Option (List (String × Val)))) : Val → Option Val
  | .dict d =>
    match incKeys glob d with
    | none => none
    | some d' => (incLevel glob d').map .dict
  | v => some v
/-- The loop over dictionary keys (`netsim/utils/read.py:37-39`) -/
def incKeys (glob : String → List (String × Option (List (String × Val)))) : List (String × Val) → Option (List (String × Val))
  | [] => some []
  | (k, v) :: r =>
    match incVal glob v, incKeys glob r with
    | some w, some s => some ((k, w) :: s)
    | _, _ => none
end

/-- `v.lower()` for ASCII strings (`netsim/utils/read.py:293`) -/
def cliLower (s : String) : List Char := s.toList.map Char.toLower

/-- `netsim/utils/read.py:287-296` (`transform_cli_value`) -/
def cliValue (s : String) : Val :=
  match pyIntStr s with
  | some i => .int i
  | none =>
    if cliLower s = "true".toList then .bool true
    else if cliLower s = "false".toList then .bool false
    else .str s

/-- The outcome of the processing of CLI arguments (`netsim/utils/read.py:298-338`): the modified topology and the number of errors, termination with an error message, or a Python exception -/
inductive CliResult where
  | done (topo : List (String × Val)) (errors : Nat)
  | fatal
  | crash
  deriving DecidableEq

/-- A key with dots is a path (`netsim/utils/read.py:322`, `box_dots`). -/
def cliPath (k : String) : List String := (splitOnChar '.' k.toList).map String.ofList

/-- A CLI setting (`netsim/utils/read.py:317-338`): `nodes.` and `links.` are checked as parts of the key. -/
def cliSetting (topo : List (String × Val)) (errors : Nat) (s : String) : CliResult :=
  match splitOnChar '=' s.toList with
  | [k, v] =>
    match setPath (cliValue (String.ofList v)) (cliPath (String.ofList k)) topo with
    | some t => .done t errors
    | none =>
      if pySubstr "nodes.".toList k || pySubstr "links.".toList k then .done topo (errors + 1) else .fatal
  | _ => .crash

/-- The loop over CLI settings (`netsim/utils/read.py:316-338`) -/
def cliSettings : List String → List (String × Val) → Nat → CliResult
  | [], t, e => .done t e
  | s :: r, t, e =>
    match cliSetting t e s with
    | .done t e => cliSettings r t e
    | .fatal => .fatal
    | .crash => .crash

/-- Set a list of paths (`netsim/utils/read.py:305-307`); `none` is a crash. -/
def cliSetAll (v : Val) : List (List String) → List (String × Val) → Option (List (String × Val))
  | [], t => some t
  | p :: r, t => (setPath v p t).bind (cliSetAll v r)

/-- The provider argument (`netsim/utils/read.py:302-307`); the provider and its options have no dots. -/
def cliProvider (topo : List (String × Val)) (s : String) : Option (List (String × Val)) :=
  match splitOnChar ':' s.toList with
  | [] => some topo
  | p :: opts =>
    cliSetAll (.bool true) ((opts.flatMap (splitOnChar ',')).map (fun o => ["defaults", "providers", String.ofList p, String.ofList o])) (setKey topo "provider" (.str (String.ofList p)))

/-- The plugin argument (`netsim/utils/read.py:309-314`); `none` is a termination with an error. -/
def cliPlugins (topo : List (String × Val)) (plugins : List String) : Option (List (String × Val)) :=
  if plugins.isEmpty then some topo
  else
    match topo.lookup "plugin" with
    | some (.dict _) => none
    | v => some (setKey topo "plugin" (.list (listParam v [.bool true] ++ plugins.map .str)))

/-- The device argument (`netsim/utils/read.py:299-300`) -/
def cliDevice (topo : List (String × Val)) (device : Option String) : Option (List (String × Val)) :=
  match device.filter (· != "") with
  | some d => setPath (.str d) ["defaults", "device"] topo
  | none => some topo

/-- The provider argument, when it's specified (`netsim/utils/read.py:302-307`) -/
def cliProviderOpt (topo : List (String × Val)) (provider : Option String) : Option (List (String × Val)) :=
  match provider.filter (· != "") with
  | some p => cliProvider topo p
  | none => some topo

/-- `netsim/utils/read.py:298-338` (`add_cli_args`) -/
def cliArgs (topo : List (String × Val)) (device provider : Option String) (plugins settings : List String) : CliResult :=
  match cliDevice topo device with
  | none => .crash
  | some t =>
    match cliProviderOpt t provider with
    | none => .crash
    | some t =>
      match cliPlugins t plugins with
      | none => .fatal
      | some t => cliSettings settings t 0

end Netlab
