import Verif.Model.Links
/-!
# Specification vocabulary for node interfaces
-/

namespace Netlab.Spec

/-- All interfaces requested by all links (link index, node name, interface data), in the
order of links and of interfaces within a link. -/
def flatReqs (ls : List LinkReq) : List (Int × String × IfReq) :=
  ls.flatMap (fun l => l.ifs.map (fun x => (l.index, x.1, x.2)))

/-- The range of interface indices that belongs to an interface type: 10000-19999 for
loopbacks, 20000-29999 for tunnels, 30000-39999 for LAG and 40000-49999 for VLAN (SVI)
interfaces, 0-9999 for all other (physical) interfaces. -/
def IndexInRange (ty : Option String) (i : Int) : Prop :=
  if ty = some "loopback" then 10000 ≤ i ∧ i < 20000
  else if ty = some "tunnel" then 20000 ≤ i ∧ i < 30000
  else if ty = some "lag" then 30000 ≤ i ∧ i < 40000
  else if ty = some "svi" then 40000 ≤ i ∧ i < 50000
  else 0 ≤ i ∧ i < 10000

end Netlab.Spec
