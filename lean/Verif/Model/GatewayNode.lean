import Verif.Model.Gateway
/-!
# First-hop gateways in node data (`netsim/modules/gateway.py`)

Simplifications:

* an interface is reduced to its `gateway` attribute and its IPv4 address;
* device features are the list of supported protocols.
-/

namespace Netlab

/-- An interface in node data: `netsim/modules/gateway.py:250-253`. -/
structure GwNodeIf where
  gw : Option GwVal
  ipv4 : Option Val
  deriving Repr, BEq

/-- `intf.gateway.protocol`; a missing attribute is an empty dictionary: `netsim/modules/gateway.py:35`. -/
def gwProtoOf (d : List (String × Val)) : Val := (d.lookup "protocol").getD (.dict [])

/-- Protocols used on interfaces, without duplicates, in the order of interfaces: the lists built in
`netsim/modules/gateway.py:32-39` and `netsim/modules/gateway.py:71-80`. -/
def gwActive : List GwNodeIf → List Val → List Val
  | [], acc => acc
  | i :: r, acc =>
    match i.gw with
    | some (.data d) => gwActive r (if acc.contains (gwProtoOf d) then acc else acc ++ [gwProtoOf d])
    | _ => gwActive r acc

/-- `netsim/modules/gateway.py:27-47` (`check_protocol_support`): the number of errors. -/
def gwUnsupported (feats : List String) (ifs : List GwNodeIf) : Nat :=
  ((gwActive ifs []).filter (fun p => !feats.any (fun f => p.isString f))).length

/-- `intf.get('gateway.anycast.unicast',None) is False`: `netsim/modules/gateway.py:61`. -/
def gwNoUnicast (d : List (String × Val)) : Bool :=
  match d.lookup "anycast" with
  | some (.dict a) =>
    match a.lookup "unicast" with
    | some (.bool false) => true
    | _ => false
  | _ => false

/-- `netsim/modules/gateway.py:53-62` (`cleanup_unicast_ip`) for one interface. -/
def gwUnicast (i : GwNodeIf) : GwNodeIf :=
  match i.gw with
  | some (.data d) =>
    if !d.isEmpty && (gwProtoOf d).isString "anycast" && gwNoUnicast d then { i with ipv4 := none } else i
  | _ => i

/-- The interface has parameters of its own protocol: `netsim/modules/gateway.py:82-87`; the expression in line 87 raises an
exception when the node has no `gateway` attribute. -/
def gwOwnParams (protos : List String) (i : GwNodeIf) : Bool :=
  match i.gw with
  | some (.data d) => d.any (fun p => protos.contains p.1 && (gwProtoOf d).isString p.1)
  | _ => false

/-- `netsim/modules/gateway.py:74-88` for one interface. -/
def gwCleanNodeIf (protos : List String) (nodeGw : List (String × Val)) (i : GwNodeIf) : GwNodeIf :=
  match i.gw with
  | some (.data d) => { i with gw := some (.data (gwCleanIntf protos nodeGw d)) }
  | _ => i

/-- `gateway: True` in interface data; `intf.gateway.protocol` raises an exception (`netsim/modules/gateway.py:35`). -/
def gwIsOn (i : GwNodeIf) : Bool :=
  match i.gw with
  | some .on => true
  | _ => false

/-- Node data after the transformation: interfaces, `gateway` attribute of the node, modules, errors and warnings
(`netsim/modules/gateway.py:250-273`). -/
structure GwNodeOut where
  ifs : List GwNodeIf
  gw : Option (List (String × Val))
  mods : List String
  errs : Nat
  warns : Nat
  deriving Repr, BEq

/-- `netsim/modules/gateway.py:250-273` (`node_post_transform`); `none` is an exception.  The second test is
the exception in line 87. -/
def gwNode (protos feats : List String) (nodeGw : Option (List (String × Val))) (mods : List String) (ifs : List GwNodeIf) :
    Option GwNodeOut :=
  let ifs1 := ifs.map (fun i => { i with gw := gwNodeIntf i.gw })
  if ifs1.any gwIsOn then none
  else if gwUnsupported feats ifs1 != 0 then some ⟨ifs1, nodeGw, mods, gwUnsupported feats ifs1, 0⟩
  else
    let ifs2 := ifs1.map gwUnicast
    if nodeGw.isNone && ifs2.any (gwOwnParams protos) then none
    else
      let ifs3 := ifs2.map (gwCleanNodeIf protos (nodeGw.getD []))
      let active := gwActive ifs2 []
      let gw := nodeGw.map (fun d => d.filter (fun p => active.any (fun a => a.isString p.1)))
      if active.isEmpty then some ⟨ifs3.map (fun i => { i with gw := none }), none, mods.filter (· != "gateway"), 0, 1⟩
      else some ⟨ifs3, gw, mods, 0, 0⟩

end Netlab
