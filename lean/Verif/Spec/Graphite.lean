import Verif.Model.Graphite
/-!
# Vocabulary for C143
-/

namespace Netlab.Spec
open Netlab

/-- The link is shown in the graph -/
def GphLink.Shown (l : GphLink) : Prop := l.type = "p2p" ∨ l.type = "lan" ∨ l.type = "stub"

/-- The link is a line between two nodes -/
def GphLink.Direct (l : GphLink) : Prop := l.type = "p2p" ∨ (l.type = "lan" ∧ l.count = 2)

/-- What the topology transformation guarantees: node names are unique and start with a letter or an underscore; links attach
existing nodes, and links that look like links with two nodes have two interfaces. -/
structure GphTopology (nodes : List GphNode) (links : List GphLink) : Prop where
  unique : (nodes.map (·.name)).Nodup
  named : ∀ n ∈ nodes, ∀ s, n.name ≠ "(" ++ s
  attached : ∀ l ∈ links, ∀ i ∈ l.intfs, ∃ n ∈ nodes, n.name = i.node
  used : ∀ l ∈ links, l.intfs ≠ []
  two : ∀ l ∈ links, GphLink.Direct l → l.intfs.length = 2
  indexes : (links.map (·.index)).Nodup

/-- Two nodes are connected in the graph: there is a line between two of their interfaces, or their interfaces are connected to
the same bridge. -/
def GraphConnected (lines : List (GphEnd × GphEnd)) (a b : GphEnd) : Prop :=
  (a, b) ∈ lines ∨ (b, a) ∈ lines ∨ ∃ h, (∃ s, h.node = "(" ++ s) ∧ (a, h) ∈ lines ∧ (b, h) ∈ lines

end Netlab.Spec
