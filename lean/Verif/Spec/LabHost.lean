import Verif.Model.LabHost
/-!
# Specification vocabulary for resources of the lab host
-/

namespace Netlab.Spec

/-- `b` is a bridge the lab needs on the host: the bridge of a link with more than two nodes that is
not an external bridge. -/
def LabBridge (links : List HLink) (b : String) : Prop :=
  b ≠ "" ∧ ∃ l ∈ links, l.bridge = some b ∧ 2 < l.nodeCount ∧ l.external = false

/-- Two hosts have the same bridges in the same state. -/
def SameBridges (h h' : BrHost) : Prop := ∀ b, h.lookup b = h'.lookup b

/-- Kernel module `k` is needed by a container in the lab: the settings of its device (or, when the
device has none, the system settings) list `k` for a netlab module the node uses. -/
def NeedsKmod (sys : List (String × List String)) (nodes : List KmNode) (k : String) : Prop :=
  ∃ n ∈ nodes, n.provider = "clab" ∧ ∃ dev, n.kmods = some dev ∧
    ∃ m, (m = "initial" ∨ m ∈ n.modules) ∧
      ((∃ ks, dev.lookup m = some ks ∧ k ∈ ks) ∨
       (dev.lookup m = none ∧ ∃ ks, sys.lookup m = some ks ∧ k ∈ ks))

end Netlab.Spec
