import Verif.Model.Svi
import Verif.Spec.VlanLinks
/-!
# Specification vocabulary: VLAN interfaces
-/

namespace Netlab.Spec
open Netlab

/-- Untagged packets on the interface belong to the VLAN (the access VLAN, or the native VLAN of an interface without an access
VLAN). -/
def untaggedIn (i : SvIf) (v : String) : Prop := i.access = some v ∨ (i.access = none ∧ i.native = some v)

/-- The interface is a bridged member of the VLAN. -/
def memberOfVlan (i : SvIf) (v : String) : Prop := untaggedIn i v ∧ i.mode ≠ some .route

/-- The interface is the VLAN interface of the VLAN. -/
def isSviOf (s : SvIf) (v : String) : Prop := s.kind = "svi" ∧ s.vname = some v

/-- `i` is the first member of the VLAN in the list. -/
def firstMember (l : List SvIf) (v : String) (i : SvIf) : Prop :=
  memberOfVlan i v ∧ ∃ pre post, l = pre ++ i :: post ∧ ∀ j ∈ pre, ¬ memberOfVlan j v

/-- The forwarding mode of a VLAN on a node: the first one that is set in the VLAN on the node, on the node, in the global
VLAN and in the topology; or `irb`. -/
def nodeVlanMode (t : SvTopo) (nd : SvNode) (v : String) : VMode :=
  firstSet [(nd.vlans.lookup v).bind (·.mode), nd.mode, (t.vlans.lookup v).bind (·.mode), t.mode] .irb

/-- The neighbor entry describing interface `s` of node `n`. -/
def ngbEntry (n : String) (s : SvIf) : SvNgb := ⟨n, s.ifname, s.ip4, s.ip6⟩

/-- Before the process: VLANs have no bridge groups and were not merged, there are no VLAN interfaces. -/
structure FreshNode (t : SvTopo) (nd : SvNode) : Prop where
  glob : ∀ v d, t.vlans.lookup v = some d → d.bg = none
  loc : ∀ v d, nd.vlans.lookup v = some d → d.bg = none ∧ d.merged = false
  svi : ∀ i ∈ nd.ifs, i.kind ≠ "svi"

/-- No node is attached twice to a link. -/
def SimpleLinks (nd : SvNode) : Prop :=
  ∀ i ∈ nd.ifs, (i.neighbors.map SvNgb.node).Nodup ∧ nd.name ∉ i.neighbors.map SvNgb.node

/-- Interface `s` is the VLAN interface of VLAN `v` on node `n`. -/
def sviOn (nodes : List SvNode) (n v : String) (s : SvIf) : Prop := ∃ nd ∈ nodes, nd.name = n ∧ s ∈ nd.ifs ∧ isSviOf s v

/-- `g` is a neighbor on a link where (VLAN-aware) node `n` has a bridged interface in VLAN `v`. -/
def onMemberLink (nodes : List SvNode) (n v : String) (g : SvNgb) : Prop :=
  ∃ nd ∈ nodes, nd.name = n ∧ nd.aware = true ∧ ∃ i ∈ nd.ifs, memberOfVlan i v ∧ g ∈ i.neighbors

/-- The node is a host. -/
def isHostNode (nodes : List SvNode) (n : String) : Prop := ∃ nd ∈ nodes, nd.name = n ∧ nd.isHost = true

/-- The input of the process: node names are unique, no node is attached twice to a link. -/
structure SviInput (t : SvTopo) (nodes : List SvNode) : Prop where
  names : (nodes.map SvNode.name).Nodup
  fresh : ∀ nd ∈ nodes, FreshNode t nd
  simple : ∀ nd ∈ nodes, SimpleLinks nd

/-- The neighbors of VLAN `v` seen from node `me`, where the VLAN exists on nodes in `scope`: every other node once; VLAN interface
if it has one, otherwise the interface connected to a link of the VLAN. -/
structure VlanNeighbors (before after : List SvNode) (scope : String → Prop) (me v : String) (l : List SvNgb) : Prop where
  once : (l.map SvNgb.node).Nodup
  others : me ∉ l.map SvNgb.node
  svi : ∀ n s, scope n → n ≠ me → sviOn after n v s → ngbEntry n s ∈ l
  phy : ∀ n g, scope n → g.node ≠ me → onMemberLink before n v g → g.node ∈ l.map SvNgb.node
  only : ∀ g ∈ l, (∃ n s, scope n ∧ sviOn after n v s ∧ g = ngbEntry n s) ∨
    ((∃ n, scope n ∧ onMemberLink before n v g) ∧ ∀ s, scope g.node → ¬ sviOn after g.node v s)

end Netlab.Spec
