import Verif.Model.Settings
/-!
# Ansible inventory (`netsim/outputs/ansible.py`)
-/

namespace Netlab

/-- Provider data used to create host variables (`netsim/outputs/ansible.py:20-47`): variables in `inventory`, names of the variables with forwarded ports, starting ports,
and device group variables of a secondary provider -/
structure AiProv where
  inventory : List (String × Val)
  portMap : List (String × String)
  forwarded : List (String × Int)
  groupVars : List (String × Val)

/-- A node: its name, ID and data (`netsim/outputs/ansible.py:52-66`) -/
structure AiNode where
  name : String
  id : Int
  data : List (String × Val)

/-- `netsim/outputs/ansible.py:49, 55-61`: variables set from other node attributes; the value of `id` is set again when node data is copied. -/
def aiTranslate (d : List (String × Val)) : List (String × Val) :=
  (match d.lookup "mgmt" with
    | some (.dict m) => match m.lookup "ipv4" with
      | some v => if v.truthy then [("ansible_host", v)] else []
      | none => []
    | _ => []) ++
  (match d.lookup "hostname" with
    | some v => if v.truthy then [("ansible_host", v)] else []
    | none => [])

/-- `netsim/outputs/ansible.py:50, 63-65` -/
def aiAttrs (d : List (String × Val)) : List (String × Val) := d.filter (fun p => !["name", "device"].contains p.1)

/-- `netsim/outputs/ansible.py:25-28` -/
def aiPorts (p : AiProv) (id : Int) : List (String × Val) :=
  p.portMap.filterMap (fun m => (p.forwarded.lookup m.1).map (fun f => (m.2, .int (f + id))))

/-- Assignments to host variables (`netsim/outputs/ansible.py:20-28`) -/
def aiAssign (h : List (String × Val)) (l : List (String × Val)) : List (String × Val) := l.foldl (fun h p => setKey h p.1 p.2) h

/-- One variable in `netsim/outputs/ansible.py:35-37` -/
def aiDefault (h : List (String × Val)) (p : String × Val) : List (String × Val) :=
  if (h.lookup p.1).isSome then h else setKey h p.1 p.2

/-- `netsim/outputs/ansible.py:52-68` (`ansible_inventory_host`) with lines 20-47 -/
def aiHost (p : AiProv) (n : AiNode) : List (String × Val) :=
  let h := aiAssign (aiAssign (aiAssign (aiAssign [] (aiTranslate n.data)) (aiAttrs n.data)) p.inventory) (aiPorts p n.id)
  if (n.data.lookup "provider").isSome then p.groupVars.foldl aiDefault h else h

/-- An inventory group (`netsim/outputs/ansible.py:129-150`) -/
structure InvGroup where
  hosts : List (String × List (String × Val)) := []
  children : List String := []
  vars : List (String × Val) := []

/-- A topology group (`netsim/outputs/ansible.py:129-200`) -/
structure AiGroupDef where
  name : String
  members : List String
  vars : List (String × Val)

/-- The group with the host data (`netsim/outputs/ansible.py:163`) -/
def aiDevice (n : AiNode) : String :=
  match n.data.lookup "device" with
  | some (.str s) => s
  | _ => "all"

/-- Hosts added to groups for a node (`netsim/outputs/ansible.py:156-168`) -/
def aiOps (prov : AiNode → AiProv) (n : AiNode) : List (String × String × List (String × Val)) :=
  (aiDevice n, n.name, aiHost (prov n) n) ::
    [("module", "modules"), ("config", "custom_configs"), ("_daemon", "daemons")].filterMap (fun x =>
      if (n.data.lookup x.1).any Val.truthy then some (x.2, n.name, []) else none)

/-- `inventory[group].hosts[name] = data` (`netsim/outputs/ansible.py:164, 168`) -/
def aiAdd (inv : List (String × InvGroup)) (o : String × String × List (String × Val)) : List (String × InvGroup) :=
  let g := (inv.lookup o.1).getD {}
  setKey inv o.1 { g with hosts := setKey g.hosts o.2.1 o.2.2 }

/-- Variables of a device group (`netsim/outputs/ansible.py:173-178`): group variables, group variables for the lab provider, and features -/
def aiDevVars (devs : List (String × List (String × Val) × List (String × Val) × Val)) (p : String × InvGroup) : String × InvGroup :=
  match devs.lookup p.1 with
  | some (gv, pv, f) => (p.1, { p.2 with vars := setKey (mergeDict gv pv) "features" f })
  | none => p

/-- One group member in `netsim/outputs/ansible.py:197-203` -/
def aiMember (nodes groups : List String) (g : InvGroup) (m : String) : InvGroup :=
  if nodes.contains m then (if (g.hosts.lookup m).isSome then g else { g with hosts := setKey g.hosts m [] })
  else if groups.contains m then (if g.children.contains m then g else { g with children := g.children ++ [m] })
  else g

/-- One group in `netsim/outputs/ansible.py:189-203` -/
def aiGroup (nodes groups : List String) (inv : List (String × InvGroup)) (d : AiGroupDef) : List (String × InvGroup) :=
  let g := (inv.lookup d.name).getD {}
  setKey inv d.name (d.members.foldl (aiMember nodes groups) { g with vars := mergeDict g.vars d.vars })

/-- `netsim/outputs/ansible.py:129-205` (`create`).  `allvars` and `modvars` are the variables of the `all` and `modules` groups (lines 132-154);
the order of custom configurations (lines 180-184) is a part of the model of custom configuration templates. -/
def aiCreate (allvars modvars : List (String × Val)) (prov : AiNode → AiProv) (devs : List (String × List (String × Val) × List (String × Val) × Val))
    (nodes : List AiNode) (groups : List AiGroupDef) : List (String × InvGroup) :=
  let i0 : List (String × InvGroup) := [("all", { vars := allvars }), ("modules", { vars := modvars }), ("custom_configs", {}), ("daemons", {})]
  let i1 := (nodes.flatMap (aiOps prov)).foldl aiAdd i0
  let i2 := i1.map (aiDevVars devs)
  groups.foldl (aiGroup (nodes.map (·.name)) (groups.map (·.name))) i2

/-- `netsim/outputs/ansible.py:219`: variables in the inventory file -/
def aiMinKeys : List String := ["id", "ansible_host", "ansible_port", "ansible_connection", "ansible_user", "ansible_ssh_pass"]

/-- Host variables in the inventory file and in the `host_vars` file (`netsim/outputs/ansible.py:249-256`) -/
def aiSplit (h : List (String × Val)) : List (String × Val) × List (String × Val) :=
  (h.filter (fun p => aiMinKeys.contains p.1), h.filter (fun p => !aiMinKeys.contains p.1))

/-- Files with host variables (`netsim/outputs/ansible.py:245-262`), in the order in which they are written -/
def aiHostFiles (inv : List (String × InvGroup)) : List (String × List (String × Val)) :=
  inv.flatMap (fun g => g.2.hosts.filterMap (fun h => if h.2.isEmpty then none else some (h.1, (aiSplit h.2).2)))

/-- Host data left in the inventory file (`netsim/outputs/ansible.py:245-262`) -/
def aiMinInv (inv : List (String × InvGroup)) : List (String × InvGroup) :=
  inv.map (fun g => (g.1, { g.2 with hosts := g.2.hosts.map (fun h => (h.1, if h.2.isEmpty then h.2 else (aiSplit h.2).1)), vars := [] }))

/-- Interface data used in the `hosts` variable (`netsim/outputs/ansible.py:73-103`) -/
structure AiIntf where
  vrf : Option String
  ipv4 : Val
  ipv6 : Val

/-- A node with its loopback interface and other interfaces (`netsim/outputs/ansible.py:73-103`) -/
structure AiHostNode where
  name : String
  loopback : Option AiIntf
  intfs : List AiIntf

/-- A usable address (`netsim/outputs/ansible.py:85-88, 92-95`); `ip` is `get_intf_address` (`netsim/utils/routing.py:17-18`) -/
def aiAddr (ip : String → String) (h kw : String) (v : Val) : List (String × String × String) :=
  match v with
  | .str s => [(h, kw, ip s)]
  | _ => []

/-- Addresses of a node (`netsim/outputs/ansible.py:78-96`): host name, list name, address -/
def aiAddrs (ip : String → String) (n : AiHostNode) : List (String × String × String) :=
  (match n.loopback with
    | some l => aiAddr ip n.name "loopback" l.ipv4 ++ aiAddr ip n.name "loopback" l.ipv6
    | none => []) ++
  (n.loopback.toList ++ n.intfs).flatMap (fun i =>
    let h := match i.vrf with | some v => n.name ++ "-" ++ v | none => n.name
    aiAddr ip h "ipv4" i.ipv4 ++ aiAddr ip h "ipv6" i.ipv6)

/-- `append_to_list(hosts[name],kw,addr)` (`netsim/outputs/ansible.py:88, 96`, `netsim/data/__init__.py:37-47`) -/
def aiAppend (hosts : List (String × List (String × List String))) (o : String × String × String) : List (String × List (String × List String)) :=
  let d := (hosts.lookup o.1).getD []
  let l := (d.lookup o.2.1).getD []
  setKey hosts o.1 (setKey d o.2.1 (if l.contains o.2.2 then l else l ++ [o.2.2]))

/-- `netsim/outputs/ansible.py:73-99` (`get_host_addresses`) without the cache -/
def aiHosts (ip : String → String) (nodes : List AiHostNode) : List (String × List (String × List String)) :=
  (nodes.flatMap (aiAddrs ip)).foldl aiAppend []

end Netlab
