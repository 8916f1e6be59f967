import Verif.Model.Box
/-!
# Spanning tree protocol (`netsim/modules/stp.py:14-106`)

Interface attributes that are not used are values of an arbitrary type.
-/

namespace Netlab

/-- An interface (`netsim/modules/stp.py:58-91`): an IP interface? a virtual interface? `stp.enable` present? `stp` present?
`stp.port_type`, neighbors, saved neighbors, `vlan.access` -/
structure StIntf (α : Type) where
  l3 : Bool
  virt : Bool
  stp : Bool
  enable : Bool
  portType : Option String
  nbrs : Option (List String)
  saved : Option (List String)
  access : Option String
  rest : α
  deriving Repr, DecidableEq

/-- STP attributes of a VLAN (`netsim/modules/stp.py:84`, `netsim/modules/stp.py:95`) -/
structure StVlan where
  portType : Option String
  priority : Option Int
  deriving Repr, DecidableEq

/-- A node (`netsim/modules/stp.py:37-106`) -/
structure StNode (α : Type) where
  enable : Option Bool
  priority : Option Int
  portType : Option String
  vlans : List (String × StVlan)
  intfs : List (StIntf α)
  deriving Repr, DecidableEq

/-- Device features (`netsim/modules/stp.py:40-76`) -/
structure StFeat where
  protocols : List String
  perPort : Bool
  portType : Bool

/-- Topology settings (`netsim/modules/stp.py:42`, `netsim/modules/stp.py:57`) and roles of nodes -/
structure StTopo where
  protocol : Option String
  stub : Option String
  roles : List (String × Option String)

/-- `netsim/modules/stp.py:14-19` (`supports_stp`) -/
def stSupports (i : StIntf α) : Bool := if i.l3 then false else if i.virt then false else true

/-- The loop in `netsim/modules/stp.py:27-30`: are all neighbors hosts?  `none` is a crash. -/
def stHosts (roles : List (String × Option String)) : List String → Option Bool
  | [] => some true
  | n :: r =>
    match roles.lookup n with
    | none => none
    | some x => if x ≠ some "host" then some false else stHosts roles r

/-- `intf.get('neighbors',intf.get('_vlan_saved_neighbors'))` (`netsim/modules/stp.py:27`) -/
def stNbrs (i : StIntf α) : List String :=
  match i.nbrs with
  | some l => l
  | none => i.saved.getD []

/-- `netsim/modules/stp.py:24-32` (`configure_stub_port_type`): should the stub port type be used? -/
def stStub (roles : List (String × Option String)) (i : StIntf α) : Option Bool :=
  if (i.nbrs.getD []).isEmpty && (i.saved.getD []).isEmpty then some false
  else stHosts roles (stNbrs i)

/-- Set the port type of an interface (`netsim/modules/stp.py:31`, `netsim/modules/stp.py:86`, `netsim/modules/stp.py:90`) -/
def stSet (i : StIntf α) (t : String) : StIntf α := { i with stp := true, portType := some t }

/-- `netsim/modules/stp.py:81-90`: VLAN or node setting -/
def stInherit (n : StNode α) (i : StIntf α) : Option (StIntf α) :=
  match i.access with
  | none => some (match n.portType with | none => i | some t => stSet i t)
  | some a =>
    match n.vlans.lookup a with
    | none => none
    | some v =>
      match v.portType with
      | some t => some (stSet i t)
      | none => some (match n.portType with | none => i | some t => stSet i t)

/-- `netsim/modules/stp.py:72-90`: port type of an interface -/
def stPort (f : StFeat) (t : StTopo) (n : StNode α) (i : StIntf α) : Option (StIntf α) :=
  if !f.portType then some i
  else if i.portType.isNone && stSupports i then
    if t.stub.getD "none" ≠ "none" then
      match stStub t.roles i with
      | none => none
      | some true => some (stSet i (t.stub.getD "none"))
      | some false => stInherit n i
    else stInherit n i
  else some i

/-- `netsim/modules/stp.py:59-71`: errors of an interface -/
def stIntfErr (f : StFeat) (i : StIntf α) : Nat :=
  if i.stp then
    (if i.l3 then 1 else 0) + (if i.enable && !f.perPort then 1 else 0) + (if i.portType.isSome && !f.portType then 1 else 0)
  else 0

/-- `netsim/modules/stp.py:94-106`: errors of a VLAN -/
def stVlanErr (f : StFeat) (t : StTopo) (v : StVlan) : Nat :=
  if v.priority.getD 0 ≠ 0 then
    if t.protocol.getD "stp" ≠ "pvrst" then 1 else if !f.protocols.contains "pvrst" then 1 else 0
  else 0

/-- `netsim/modules/stp.py:37-106` (`node_post_transform`): interfaces and the number of errors; `none` is a crash. -/
def stNode (f : StFeat) (t : StTopo) (n : StNode α) : Option (List (StIntf α) × Nat) :=
  if !n.enable.getD true then some (n.intfs, 0)
  else (n.intfs.mapM (stPort f t n)).map (fun l =>
    (l, (if f.protocols.contains (t.protocol.getD "stp") then 0 else 1) +
        (if n.priority.getD 0 ≠ 0 ∧ n.priority.getD 0 % 4096 ≠ 0 then 1 else 0) +
        (n.intfs.map (stIntfErr f)).sum + (n.vlans.map (fun v => stVlanErr f t v.2)).sum))

end Netlab
