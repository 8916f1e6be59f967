import Verif.Model.GatewayNode
/-!
# Specification vocabulary: first-hop gateways in node data
-/

namespace Netlab.Spec
open Netlab

/-- The interface uses a first-hop gateway with the given settings. -/
def UsesGw (i : GwNodeIf) (d : List (String × Val)) : Prop := i.gw = some (.data d)

/-- The first-hop gateway protocol of the interface. -/
def GwProtocol (i : GwNodeIf) (p : String) : Prop := ∃ d, UsesGw i d ∧ d.lookup "protocol" = some (.str p)

/-- The interface uses an anycast gateway without unicast addresses. -/
def AnycastOnly (i : GwNodeIf) : Prop :=
  ∃ d a, UsesGw i d ∧ d.lookup "protocol" = some (.str "anycast") ∧ d.lookup "anycast" = some (.dict a) ∧
    a.lookup "unicast" = some (.bool false)

end Netlab.Spec
