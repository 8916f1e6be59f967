import Verif.Model.LibvirtNet
/-!
# Specification vocabulary: networks of libvirt labs
-/

namespace Netlab.Spec
open Netlab

/-- An IPv4 subnet: the prefix length and the first address. -/
structure Ipv4Subnet (n : LvNet) (len : Nat) : Prop where
  short : len ≤ 32
  size : n.size = 2 ^ (32 - len)
  aligned : n.base % n.size = 0
  range : n.base + n.size ≤ 2 ^ 32

/-- The definition of a management network: its name, bridge, IPv4 address and mask of the bridge, first and last
dynamic address, and MAC-to-IP bindings. -/
def mgmtNetworkXml (name bridge : List Char) (address mask first last : Nat) (hosts : List (String × String)) : List XTok :=
  [.text "<network><name>".toList, .text name,
   .text "</name><forward mode='nat'><nat><port start='1024' end='65535'/></nat></forward><bridge name='".toList,
   .text bridge, .text "' stp='on' delay='0'/><mac address='52:54:00:d8:3f:0d'/><ip address=".toList,
   .addr address, .text " netmask=".toList, .addr mask, .text "><dhcp><range start=".toList, .addr first,
   .text " end=".toList, .addr last, .text "/>".toList] ++ hosts.map (fun h => .host h.1 h.2) ++
  [.more, .text "</dhcp></ip></network>".toList]

/-- The name specified by the user, or the default. -/
def nameOr (dflt : String) (s : List Char) : List Char := if s = [] then dflt.toList else s

/-- An attribute has a nonempty value. -/
def HasValue (v : Option String) : Prop := ∃ s, v = some s ∧ s ≠ ""

/-- The link connects a node with an explicit provider, or another provider has been requested for the link. -/
def MultiProvider (prov : String → Option String) (l : LvLink) : Prop :=
  l.provs ≠ [] ∨ ∃ n ∈ l.nodes, (prov n).isSome

/-- VLAN links are not changed. -/
def IsVlanLink (l : LvLink) : Prop := ∃ a b, (l.type.getD "").toList = a ++ "vlan".toList ++ b

/-- The link has to be implemented with a bridge. -/
def MustBeLan (prov : String → Option String) (p2pBridge : Bool) (l : LvLink) : Prop :=
  (MultiProvider prov l ∧ ¬ IsVlanLink l) ∨ (p2pBridge = true ∧ l.type.getD "p2p" = "p2p")

/-- The link uses a libvirt network. -/
def UsesNetwork (l : LvBrLink) (b : String) : Prop := l.bridge = some b ∧ b ≠ "" ∧ l.libvirt = true

end Netlab.Spec
