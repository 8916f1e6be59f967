import Verif.Model.Gateway
/-!
# Specification vocabulary for first-hop gateways
-/

namespace Netlab.Spec

/-- A gateway is requested with `gateway: True` or with gateway parameters. -/
def AsksForGateway (g : Option GwVal) : Prop := g = some .on ∨ ∃ d, g = some (.data d)

/-- Settings of a gateway that passed the checks: a non-zero integer identifier that is not the
last address of the subnet, and a protocol. -/
def GatewayIdOk (d : List (String × Val)) : Prop :=
  ∃ i : Int, d.lookup "id" = some (.int i) ∧ i ≠ 0 ∧ i ≠ -1

end Netlab.Spec
