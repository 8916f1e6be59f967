import Verif.Model.Ghost

namespace Netlab.Spec

open Netlab

variable {α β : Type}

/-- The topology has a node with this name that is not unmanaged. -/
def Managed (t : GbTopo α β) (n : String) : Prop := ∃ x ∈ t.nodes, x.name = n ∧ x.unmanaged = false

/-- Nobody changed the number of nodes on a link. -/
def Counted (t : GbTopo α β) : Prop := ∀ l ∈ t.links, l.nodeCount = l.ifs.length

/-- Links of this type need a bridge. -/
def NeedsBridge (ty : String) : Prop := ty ≠ "p2p" ∧ ty ≠ "loopback" ∧ ty ≠ "vlan_member"

/-- `l'` is the link `l` as seen by managed nodes. -/
structure SeenAs (t : GbTopo α β) (l l' : GbLink β) : Prop where
  idx : l'.idx = l.idx
  hosts : l'.hostCount = l.hostCount
  rest : l'.rest = l.rest
  /-- exactly the interfaces of managed nodes, in the original order -/
  order : l'.ifs.Sublist l.ifs
  members : ∀ i, i ∈ l'.ifs ↔ i ∈ l.ifs ∧ Managed t i.1
  /-- nothing changes when all nodes are managed -/
  same : (∀ i ∈ l.ifs, Managed t i.1) → l' = l
  /-- a link with one node left is a stub link (or LAN if it has hosts); other links with more than two nodes keep the type -/
  type2 : l.ifs.length = 2 → l.nodeCount = 2 → l'.ifs.length < 2 → l'.type = if l.hostCount = 0 then "stub" else "lan"
  typeN : l.ifs.length ≠ 2 → l'.type = l.type
  count : l.nodeCount = l.ifs.length → l'.nodeCount = l'.ifs.length
  bridge : ∀ b, l.bridge = some b → l'.bridge = some b
  bridged : l' ≠ l → NeedsBridge l'.type → l'.bridge ≠ none
  unbridged : ¬ NeedsBridge l'.type → l'.bridge = l.bridge

end Netlab.Spec
