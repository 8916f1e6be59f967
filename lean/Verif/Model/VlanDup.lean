import Verif.Model.Svi
/-!
# Duplicate addresses in VLANs

`check_vlan_duplicate_address` (`netsim/modules/vlan.py`) with `check_duplicate_address` (`netsim/augment/links.py`).

Simplifications: addresses are strings or missing; gateway addresses of VLANs are a parameter; error messages are counted.
-/

namespace Netlab

/-- The address of a neighbor in an address family (`true`: IPv6): `netsim/augment/links.py:1151-1153`. -/
def ngbIp (af : Bool) (n : SvNgb) : Option String := if af then n.ip6 else n.ip4

/-- One address family: the loop over interfaces, `netsim/augment/links.py:1150-1163`.  `seen` is the list of keys in `dup_dict`. -/
def vdupLoop (af : Bool) (seen : List String) : List SvNgb → Nat
  | [] => 0
  | n :: rest =>
    match ngbIp af n with
    | none => vdupLoop af seen rest
    | some a => if seen.contains a then vdupLoop af seen rest + 1 else vdupLoop af (a :: seen) rest

/-- `check_duplicate_address`, `netsim/augment/links.py:1146-1163`: the number of errors. -/
def vdupCheck (gw : Bool → Option String) (l : List SvNgb) : Nat :=
  vdupLoop false (gw false).toList l + vdupLoop true (gw true).toList l

/-- `check_vlan_duplicate_address(topology,topology)`, `netsim/modules/vlan.py:1214-1223`: the number of errors.  A VLAN without
`neighbors` has an empty list of neighbors. -/
def vlanDups (gw : String → Bool → Option String) (t : SvTopo) (upds : List SvUpd) : Nat :=
  (t.vlans.map (fun v => vdupCheck (gw v.1) (vlanNgb upds (none, v.1)))).sum

/-- `module_post_link_transform`, `netsim/modules/vlan.py:1405-1420`, without trunks: nodes and the number of errors.
`warn` is `defaults.warnings.duplicate_address`. -/
def vlanPostLink (warn : Bool) (gw : String → Bool → Option String) (t : SvTopo) (nodes : List SvNode) :
    Except SvAbort (List SvNode × Nat) :=
  match vlanIfNodes t nodes with
  | .error a => .error a
  | .ok (l, upds) =>
    .ok (l.map (fun nd => { nd with ifs := nd.ifs.map (setNgb t l upds nd) }), if warn then vlanDups gw t upds else 0)

end Netlab
