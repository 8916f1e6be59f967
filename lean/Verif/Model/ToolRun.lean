import Verif.Model.Box
/-!
# External tools and lab status

Commands executed to start and stop external tools (`netsim/cli/external_commands.py:200-272`, `netsim/cli/up.py:265-290`,
`netsim/cli/down.py:129-142`) and the display of lab status (`netsim/cli/status.py`).

Simplifications: formatting of commands (`strings.eval_format`) is not modelled: a command is recorded together with the
topology data it is formatted with; values that should be dictionaries are dictionaries (or missing), tool runtimes are
strings.
-/

namespace Netlab

/-- `d[k]` for a dictionary in a dictionary; a missing one is an empty `Box`: `netsim/cli/external_commands.py:204`. -/
def subDict (d : List (String × Val)) (k : String) : List (String × Val) :=
  match d.lookup k with
  | some (.dict x) => x
  | _ => []

/-- `topology.defaults.tools[tool] + topology.tools[tool]`: `netsim/cli/external_commands.py:204`. -/
def trData (topo : List (String × Val)) (tool : String) : List (String × Val) :=
  mergeDict (subDict (subDict (subDict topo "defaults") "tools") tool) (subDict (subDict topo "tools") tool)

/-- `tdata.runtime or 'docker'`: `netsim/cli/external_commands.py:205`. -/
def trRuntime (tdata : List (String × Val)) : String :=
  match tdata.lookup "runtime" with
  | some (.str s) => if s = "" then "docker" else s
  | _ => "docker"

/-- `get_tool_runtime_param`, `netsim/cli/external_commands.py:203-218`: the changed topology and the value. -/
def trParam (tool param : String) (topo : List (String × Val)) : List (String × Val) × Option Val :=
  let tdata := trData topo tool
  let runtime := trRuntime tdata
  if (tdata.lookup runtime).isNone then (topo, none)
  else
    let x := mergeDict (subDict tdata runtime) tdata
    let topo' := setKey topo tool (.dict x)
    match x.lookup param with
    | some v => (topo', if v.truthy then some v else none)
    | none => (topo', none)

/-- `get_tool_command`, `netsim/cli/external_commands.py:223-228`. -/
def trCommand (tool cmd : String) (topo : List (String × Val)) : List (String × Val) × Option (List Val) :=
  let x := trParam tool cmd topo
  (x.1, x.2.map (fun v => match v with
    | .list l => l
    | v => [v]))

/-- `docker_is_used`, `netsim/cli/external_commands.py:233-237`. -/
def dockerUsed (topo : List (String × Val)) : Bool :=
  match topo.lookup "provider" with
  | some (.str p) =>
    if p = "clab" then true
    else match (subDict topo p).lookup "providers" with
      | some (.dict d) => (d.lookup "clab").isSome
      | some (.list l) => l.contains (.str "clab")
      | _ => false
  | _ => false

/-- The Docker network: `netsim/cli/external_commands.py:255-258`. -/
def dockerNet (topo : List (String × Val)) : String :=
  if dockerUsed topo then
    "--network=" ++ (match (subDict (subDict topo "addressing") "mgmt").lookup "_network" with
      | some (.str s) => if s = "" then "netlab_mgmt" else s
      | _ => "netlab_mgmt")
  else ""

/-- `topology.sys.docker_net`, `topology.sys.ipaddr`: `netsim/cli/external_commands.py:255-258`. -/
def trSys (addr : String) (topo : List (String × Val)) : List (String × Val) :=
  setKey topo "sys" (.dict (setKey (setKey (subDict topo "sys") "docker_net" (.str (dockerNet topo))) "ipaddr" (.str addr)))

/-- A command executed for a tool, and the topology data used to format it: `netsim/cli/external_commands.py:260-262`. -/
structure ToolCmd where
  tool : String
  cmd : Val
  topo : List (String × Val)
deriving DecidableEq, Repr

/-- One tool: `netsim/cli/up.py:278-283`, `netsim/cli/down.py:131-135`, `netsim/cli/external_commands.py:254-262`. -/
def trTool (cmd addr tool : String) (topo : List (String × Val)) : List (String × Val) × List ToolCmd :=
  let x := trCommand tool cmd topo
  match x.2 with
  | none => (x.1, [])
  | some l =>
    let t := trSys addr x.1
    (t, l.map (fun c => ⟨tool, c, t⟩))

/-- The loop over tools: `netsim/cli/up.py:278-288`, `netsim/cli/down.py:131-137`. -/
def trTools (cmd addr : String) : List String → List (String × Val) → List ToolCmd
  | [], _ => []
  | t :: rest, topo =>
    let x := trTool cmd addr t topo
    x.2 ++ trTools cmd addr rest x.1

/-- `start_external_tools`, `netsim/cli/up.py:265-290`. -/
def startTools (noTools : Bool) (addr : String) (topo : List (String × Val)) : List ToolCmd :=
  if (topo.lookup "tools").isNone then []
  else if noTools then []
  else trTools "up" addr ((subDict topo "tools").map (·.1)) topo

/-- `stop_external_tools`, `netsim/cli/down.py:129-142`. -/
def stopTools (addr : String) (topo : List (String × Val)) : List ToolCmd :=
  if (topo.lookup "tools").isNone then []
  else trTools "down" addr ((subDict topo "tools").map (·.1)) topo

/-- `get_tool_message`, `netsim/cli/external_commands.py:267-272`: the message before it's formatted. -/
def toolMessage (tool : String) (topo : List (String × Val)) : Option Val := (trParam tool "message" topo).2

/-- `get_local_addr`, `netsim/cli/external_commands.py:242-249`: parts of the value of an environment variable. -/
def localAddr (ssh : Option (List String)) : String :=
  match ssh with
  | some l => if 4 ≤ l.length then l.getD 2 "127.0.0.1" else "127.0.0.1"
  | none => "127.0.0.1"

/-! ### Lab status -/

/-- A key of the status file, `netsim/cli/status.py:49-53`: a number or a name. -/
inductive LabKey
  | num (n : Nat)
  | name (s : String)
deriving DecidableEq, Repr

/-- The instance requested by the user, `netsim/cli/status.py:53` (`isdigit`, ASCII digits). -/
def labKey (s : String) : LabKey :=
  if s ≠ "" ∧ s.toList.all Char.isDigit then .num (s.toList.foldl (fun n c => 10 * n + (c.toNat - 48)) 0) else .name s

/-- `get_instance`, `netsim/cli/status.py:51-76`: `none` is the error exit. -/
def getInstance (arg : Option String) (cwd : String) (states : List (LabKey × String)) : Option LabKey :=
  match arg with
  | some a =>
    if a = "" then (states.find? (fun s => s.2 == cwd)).map (·.1)
    else if (states.lookup (labKey a)).isSome then some (labKey a) else none
  | none => (states.find? (fun s => s.2 == cwd)).map (·.1)

/-- `get_lab_status`, `netsim/cli/status.py:150-158`; the test for a substring is a parameter. -/
def labStatusOf (started : String → Bool) (status : String) (lines : List String) : String :=
  if status = "started" then status
  else match lines.find? started with
    | some l => l
    | none => status

/-- Node data in the status display: `netsim/cli/status.py:108-129`. -/
structure StatNode where
  name : String
  provider : Option String
  unmanaged : Bool
deriving DecidableEq, Repr

/-- A row of the status display: name, provider, VM or container, status; `netsim/cli/status.py:119-139`. -/
inductive StatRow
  | unmanaged (node : String)
  | node (node provider vm status : String)
  | tool (tool vm status : String)
deriving DecidableEq, Repr

/-- A node, `netsim/cli/status.py:108-129`.  `stat` is the status of VMs and containers (`get_lab_status`), `vmName` the name of
a VM or container (`get_node_name`). -/
def statusNode (stat : String → List (String × String)) (vmName : String → String → String) (dflt : String) (n : StatNode) :
    StatRow :=
  let p := n.provider.getD dflt
  if n.unmanaged then .unmanaged n.name
  else
    let vm := vmName p n.name
    .node n.name p vm (match (stat p).lookup vm with
      | some s => s
      | none => ((stat p).lookup n.name).getD "Unknown")

/-- `show_lab_nodes`, `netsim/cli/status.py:103-141`. -/
def statusRows (stat : String → List (String × String)) (vmName : String → String → String) (dflt lab : String)
    (nodes : List StatNode) (tools : List String) : List StatRow :=
  nodes.map (statusNode stat vmName dflt) ++
  tools.map (fun t => .tool t (lab ++ "_" ++ t) (((stat "clab").lookup (lab ++ "_" ++ t)).getD "Not running"))

/-- `get_lab_status` (libvirt), `netsim/providers/libvirt.py:408-432`: lines split into items. -/
def vagrantStatus (lines : List (List String)) : List (String × String) :=
  lines.foldl (fun d l => match l with
    | _ :: vm :: k :: s :: _ => if k = "state-human-short" then setKey d vm s else d
    | _ => d) []

/-- `get_lab_status` (containerlab), `netsim/providers/clab.py:215-241`: names and status of containers in the printout. -/
def dockerStatus (lines : List (String × String)) : List (String × String) := lines.foldl (fun d l => setKey d l.1 l.2) []

/-- `get_node_name`, `netsim/providers/clab.py:250-252`. -/
def clabNode (pfx : String) (lab node : String) : String :=
  if pfx = "" then node else pfx ++ "-" ++ lab ++ "-" ++ node

end Netlab
