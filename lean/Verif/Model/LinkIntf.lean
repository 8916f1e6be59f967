import Verif.Model.Gateway
import Verif.Model.IgpProto
/-!
# Interface data of links (`netsim/augment/links.py:339-351, 739-825, 1027-1096`)
-/

namespace Netlab

/-- One attribute in `netsim/augment/links.py:344-351` (`interface_data`) -/
def idAttr (link d : List (String × Val)) (k : String) : List (String × Val) :=
  match link.lookup k with
  | none => d
  | some lv =>
    match d.lookup k with
    | none => setKey d k lv
    | some dv =>
      match lv, dv with
      | .dict a, .dict b => setKey d k (.dict (mergeDict a b))
      | _, _ => d

/-- `netsim/augment/links.py:344-351` (`interface_data`); `attrs` is a set. -/
def intfData (link : List (String × Val)) (attrs : List String) (d : List (String × Val)) : List (String × Val) :=
  attrs.foldl (idAttr link) d

/-- Propagated link attributes (`netsim/augment/links.py:197-199, 844-848`): link attributes without those that are not propagated, and modules of the node without
modules that are not propagated -/
def propAttrs (link internal noProp modules noMod : List String) : List String :=
  ((((link ++ internal).filter (fun k => !noProp.contains k)) ++ modules).filter (fun k => !noMod.contains k)).eraseDups

/-- Neighbor data (`netsim/augment/links.py:870-883`): `mods` are modules of the neighbor with interface attributes. -/
def ngbData (node : String) (ifname : Val) (mods : List String) (remote : List (String × Val)) : List (String × Val) :=
  intfData remote (mods ++ ["ipv4", "ipv6"]).eraseDups [("ifname", ifname), ("node", .str node)]

/-- The address of an interface in node data (`netsim/augment/links.py:317-319`) -/
def liNode (v : Option Val) : Option Val :=
  match v with
  | some x => if x.truthy then some x else none
  | none => none

/-- The address of an interface in link data and the number of errors (`netsim/augment/links.py:742-769`, `cleanup_link_interface_AF_entries`); `none` is an
exception. -/
def liClean (v : Option Val) : Option (Option Val × Nat) :=
  match v with
  | none => some (none, 0)
  | some (.bool false) => some (none, 0)
  | some (.bool true) => some (v, 0)
  | some (.int _) => some (v, 1)
  | some (.str s) => some (v, if s.toList.contains '/' then 0 else 1)
  | some (.list l) => some (v, if l.any (fun x => x == .str "/") then 0 else 1)
  | some (.dict d) => some (v, if (d.lookup "/").isSome then 0 else 1)
  | some .null => none

/-- `netsim/augment/links.py:774-777` (`get_interface_description`) and `netsim/augment/links.py:787-801` (`create_ifname`): `maxn` is the maximum number of neighbors
in the description, and `maxl` is its maximum length. -/
def createIfname (maxn maxl : Nat) (node : String) (ngb : List String) (p2p : Bool) : String :=
  match ngb with
  | [] => node ++ " -> stub"
  | x :: r =>
    if r.isEmpty && p2p then node ++ " -> " ++ x
    else
      let name := node ++ " -> [" ++ ",".intercalate (ngb.take maxn) ++ (if ngb.length ≤ maxn then "" else "...") ++ "]"
      if name.length ≥ maxl then String.ofList (name.toList.take (maxl - 3)) ++ "..." else name

/-- `netsim/augment/links.py:803-810` (`set_interface_name`): `i` is the position of the interface on the link. -/
def setIfName (maxn maxl : Nat) (linkName : Option String) (nodes : List String) (i : Nat) : Option String :=
  match linkName with
  | some n => some n
  | none => (nodes[i]?).map (fun n => createIfname maxn maxl n (nodes.eraseIdx i) true)

/-- `netsim/augment/links.py:815-825` (`set_parent_interface`): attributes `_parent_intf` and `_parent_ipv4` -/
def parentIntf (v4 lbname lbv4 : Option Val) : Option Val × Option Val :=
  if ipUnnum v4 then (liNode lbname, liNode lbv4) else (none, none)

/-- A node in `netsim/augment/links.py:1031-1050`: device features and addresses of interfaces -/
structure FcNode where
  f4 : Bool
  f6 : Bool
  intfs : List (Option Val × Option Val)

/-- `netsim/augment/links.py:1031-1050` (`interface_feature_check`): number of errors -/
def fcErrors (nodes : List FcNode) : Nat :=
  (nodes.map (fun n => (n.intfs.map (fun i =>
    (if ipUnnum i.1 && !n.f4 then 1 else 0) + (if ipUnnum i.2 && !n.f6 then 1 else 0))).sum)).sum

/-- `netsim/augment/links.py:1086-1096` (`set_node_af`): `lb` and `intfs` are attributes of the loopback and of interfaces. -/
def nodeAf (lb : List String) (intfs : List (List String)) (af : List (String × Val)) : List (String × Val) :=
  ["ipv4", "ipv6"].foldl (fun a x => if lb.contains x || intfs.any (fun i => i.contains x) then setKey a x (.bool true) else a) af

/-- One address family in `netsim/augment/links.py:1080-1081` -/
def clgSet (lg a : List (String × Val)) (x : String) : List (String × Val) :=
  match lg.lookup x with
  | some v => setKey a x v
  | none => a

/-- The loop over address families in `netsim/augment/links.py:1079-1081` -/
def clgCopy (lg gw : List (String × Val)) : List (String × Val) := ["ipv4", "ipv6"].foldl (clgSet lg) gw

/-- `netsim/augment/links.py:1068-1081` (`copy_link_gateway`) for one interface: is its node a host and does it use the gateway module; `none` is an exception (`in`
used with a Boolean, or setting an item of a Boolean). -/
def clgIntf (lg : GwVal) (host uses : Bool) (gw : Option GwVal) : Option (Option GwVal) :=
  match lg, host, uses, gw with
  | .data d, true, _, _ => some (some (.data d))
  | _, _, false, g => some g
  | _, _, true, some .off => some (some .off)
  | .data d, false, true, some (.data g) => some (some (.data (clgCopy d g)))
  | .data d, false, true, none => some (if (d.lookup "ipv4").isSome || (d.lookup "ipv6").isSome then some (.data (clgCopy d [])) else none)
  | .data d, false, true, some .on => if (d.lookup "ipv4").isSome || (d.lookup "ipv6").isSome then none else some (some .on)
  | _, _, true, _ => none

end Netlab
