import Verif.Model.ToolRun
import Verif.Spec.Box
/-!
# Specification vocabulary: external tools and lab status
-/

namespace Netlab.Spec
open Netlab

/-- The first of two values that is specified. -/
def firstSetting (a b : Option Val) : Option Val := if a.isSome then a else b

/-- The runtime of the tool: specified in the lab topology, in system defaults, or Docker. -/
def runtimeOf (topo : List (String × Val)) (tool : String) : String :=
  match firstSetting (Val.at (.dict topo) ["tools", tool, "runtime"]) (Val.at (.dict topo) ["defaults", "tools", tool, "runtime"]) with
  | some (.str s) => if s = "" then "docker" else s
  | _ => "docker"

/-- The data of the runtime is available. -/
def RuntimeKnown (topo : List (String × Val)) (tool : String) : Prop :=
  (Val.at (.dict topo) ["tools", tool, runtimeOf topo tool]).isSome ∨
  (Val.at (.dict topo) ["defaults", "tools", tool, runtimeOf topo tool]).isSome

/-- The value of a tool parameter: settings of the tool are used before the settings of its runtime, settings in the lab topology
before system defaults. -/
def toolSetting (topo : List (String × Val)) (tool p : String) : Option Val :=
  firstSetting (Val.at (.dict topo) ["tools", tool, p]) (firstSetting (Val.at (.dict topo) ["defaults", "tools", tool, p])
    (firstSetting (Val.at (.dict topo) ["tools", tool, runtimeOf topo tool, p])
      (Val.at (.dict topo) ["defaults", "tools", tool, runtimeOf topo tool, p])))

/-- The topology data is well formed: unique keys, data of runtimes are dictionaries. -/
structure ToolsOk (topo : List (String × Val)) : Prop where
  keys : Val.UniqueKeys (.dict topo)
  runtime : ∀ tool v, Val.at (.dict topo) ["tools", tool, runtimeOf topo tool] = some v → v.isDict = true
  defaults : ∀ tool v, Val.at (.dict topo) ["defaults", "tools", tool, runtimeOf topo tool] = some v → v.isDict = true

/-- Individual commands in a setting: a list, or a single command. -/
def commandsIn : Option Val → List Val
  | none => []
  | some (.list l) => l
  | some v => if v.truthy then [v] else []

/-- The commands of the tool for an action (`up`, `down`); there are none when the runtime is not known. -/
noncomputable def toolCommands (topo : List (String × Val)) (tool action : String) : List Val :=
  open Classical in if RuntimeKnown topo tool then commandsIn (toolSetting topo tool action) else []

/-- Names of tools do not clash with the parts of lab topology used to start the tools. -/
structure ToolNames (topo : List (String × Val)) (tools : List String) : Prop where
  fixed : ∀ t ∈ tools, t ∉ ["tools", "defaults", "sys", "provider", "addressing"]
  provider : ∀ t ∈ tools, Val.at (.dict topo) ["provider"] ≠ some (.str t)

/-- Containers are used in the lab: `clab` is the primary or a secondary provider. -/
def UsesContainers (topo : List (String × Val)) : Prop :=
  Val.at (.dict topo) ["provider"] = some (.str "clab") ∨
  ∃ p, Val.at (.dict topo) ["provider"] = some (.str p) ∧
    ((Val.at (.dict topo) [p, "providers", "clab"]).isSome ∨
     ∃ l, Val.at (.dict topo) [p, "providers"] = some (.list l) ∧ .str "clab" ∈ l)

/-- Tools used in the lab. -/
def toolsUsed (topo : List (String × Val)) : List String :=
  match Val.at (.dict topo) ["tools"] with
  | some (.dict d) => d.map (·.1)
  | _ => []

/-- The Docker network of the lab. -/
def mgmtNetwork (topo : List (String × Val)) : String :=
  match Val.at (.dict topo) ["addressing", "mgmt", "_network"] with
  | some (.str s) => if s = "" then "netlab_mgmt" else s
  | _ => "netlab_mgmt"

/-- Data available to the command of a tool: the Docker network (when containers are used), the address of the lab host, and
all tool parameters. -/
structure CommandData (topo : List (String × Val)) (addr : String) (r : ToolCmd) : Prop where
  network : UsesContainers topo → Val.at (.dict r.topo) ["sys", "docker_net"] = some (.str ("--network=" ++ mgmtNetwork topo))
  noNetwork : ¬ UsesContainers topo → Val.at (.dict r.topo) ["sys", "docker_net"] = some (.str "")
  address : Val.at (.dict r.topo) ["sys", "ipaddr"] = some (.str addr)
  parameters : ∀ p, (∀ v, toolSetting topo r.tool p = some v → v.isDict = false) →
    Val.at (.dict r.topo) [r.tool, p] = toolSetting topo r.tool p

/-- The status of a VM or container in the printout of `vagrant status`: the last line with its name. -/
def LastState (lines : List (List String)) (vm s : String) : Prop :=
  ∃ l t r rest, lines = l ++ (t :: vm :: "state-human-short" :: s :: rest) :: r ∧
    ∀ t' s' rest', (t' :: vm :: "state-human-short" :: s' :: rest') ∉ r

end Netlab.Spec
