import Verif.Model.Links
import Verif.Model.LinkIntf
/-!
# VLAN access links and single-node VLAN links (`netsim/modules/vlan.py:332-370, 693-726, 974-985, 1187-1246, 1376-1387, 1422`)
-/

namespace Netlab

/-- A link in `netsim/modules/vlan.py:693-726`: index, VLAN name (set on VLAN links), attached nodes, prefix, is it a VLAN member link -/
structure VaLink where
  idx : Int
  vlan : Option String
  nodes : List String
  pfx : Option Val
  member : Bool

/-- The first loop of `netsim/modules/vlan.py:694-702` (`create_loopback_vlan_links`): the VLAN is used on a link of the node. -/
def vaAttached (links : List VaLink) (node vlan : String) : Bool :=
  links.any (fun l => l.vlan == some vlan && l.nodes.contains node)

/-- The new link for a VLAN of a node (`netsim/modules/vlan.py:714-719`); `start` is `defaults.link_index`, `gpfx` are prefixes of global VLANs. -/
def vaNew (start : Int) (gpfx : String → Option Val) (cur : List VaLink) (node vlan : String) : VaLink :=
  { idx := nextLinkindex start (cur.map (·.idx)), vlan := some vlan, nodes := [node], pfx := (gpfx vlan).filter (fun v => v.truthy), member := true }

/-- One VLAN of a node in `netsim/modules/vlan.py:707-726`; `mode` is the mode of VLAN interfaces of nodes. -/
def vaVlan (start : Int) (gpfx : String → Option Val) (mode : String → String → String) (links : List VaLink) (node : String) (cur : List VaLink)
    (vlan : String) : List VaLink :=
  if vaAttached links node vlan then cur
  else if mode node vlan = "irb" then cur ++ [vaNew start gpfx cur node vlan] else cur

/-- `netsim/modules/vlan.py:693-726` (`create_loopback_vlan_links`); nodes have names and VLANs. -/
def vaLoopback (start : Int) (gpfx : String → Option Val) (mode : String → String → String) (links : List VaLink) (nodes : List (String × List String)) :
    List VaLink :=
  nodes.foldl (fun cur n => n.2.foldl (vaVlan start gpfx mode links n.1) cur) links

/-- `intf[attr] is False` (`netsim/modules/vlan.py:356`) -/
def vaFalse (v : Val) : Bool :=
  match v with
  | .bool false => true
  | _ => false

/-- `netsim/modules/vlan.py:332-370` (`check_link_interface_attributes`): number of errors, `none` is an exception.  `mode` is the VLAN mode of the interface, and
`routed` tells whether the access VLAN is a global VLAN in routed mode and the check is enabled. -/
def claErrors (valid : List String) (mode : Option String) (routed : Bool) (intf : List (String × Val)) : Option Nat :=
  match mode with
  | none => none
  | some m =>
    if m = "route" then some 0
    else if routed then some 1
    else if intf.all (fun p => (valid ++ ["node", "_vlan_mode"]).contains p.1 || (["ipv4", "ipv6"].contains p.1 && vaFalse p.2)) then some 0
    else some 1

/-- `netsim/modules/vlan.py:1383-1387`: VLAN attributes of the node copied to the interface -/
def vaCopy (copied : List String) (vdata intf : List (String × Val)) : List (String × Val) := copied.foldl (clgSet vdata) intf

/-- A link of a VLAN (`netsim/modules/vlan.py:1196-1205`) -/
def vaAccStep (start : Int) (adj : String → List String → Option VaLink) (v : String) (cur : List VaLink) (l : List String) : List VaLink :=
  match adj v l with
  | some x => cur ++ [{ x with idx := nextLinkindex start (cur.map (·.idx)), vlan := some v }]
  | none => cur

/-- `netsim/modules/vlan.py:1187-1207` (`create_vlan_access_links`): `adj` is `adjust_link_object` (`none` is an error), `vlans` are global VLANs with the links of
the VLAN. -/
def vaAccess (start : Int) (adj : String → List String → Option VaLink) (links : List VaLink) (vlans : List (String × List (List String))) : List VaLink :=
  vlans.foldl (fun cur v => v.2.foldl (vaAccStep start adj v.1) cur) links

/-- `netsim/modules/vlan.py:977-985` (`rename_neighbor_interface`): neighbors of interfaces of a node are pairs of node and interface names. -/
def vaRename (nbr old new : String) (intfs : List (List (String × String))) : List (List (String × String)) :=
  intfs.map (List.map (fun n => if n.1 = nbr ∧ n.2 = old then (n.1, new) else n))

/-- An interface in `netsim/modules/vlan.py:1229-1241` (`cleanup_vlan_flags`) -/
def vaClean (intf : List (String × Val)) : List (String × Val) :=
  let i := popKey (popKey intf "vlan_name") "_global_merge"
  match i.lookup "_vlan_mode" with
  | none => i
  | some m => popKey (setKey i "vlan" (.dict (setKey (match i.lookup "vlan" with | some (.dict d) => d | _ => []) "mode" m))) "_vlan_mode"

/-- `netsim/modules/vlan.py:1422`: VLAN member links are removed. -/
def vaFinal (links : List VaLink) : List VaLink := links.filter (fun l => !l.member)

end Netlab
