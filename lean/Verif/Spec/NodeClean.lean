import Verif.Model.NodeClean

namespace Netlab.Spec

open Netlab

variable {α : Type}

/-- The MTU is within the limits of the device, and large enough for IPv6. -/
def MtuOk (f : NcFeat) (ipv6 : Bool) (m : Int) : Prop :=
  (∀ x, f.minMtu = some x → x ≤ m) ∧ (∀ x, f.maxMtu = some x → m ≤ x) ∧ (ipv6 = true → 1280 ≤ m)

/-- The node uses this system-wide MTU. -/
def SystemMtu (f : NcFeat) (n : NcNode α) (m : Int) : Prop := f.system = true ∧ n.mtu = some m

/-- A usable node: different interface names and usable MTU values.  MTU values of interfaces that are equal to the system MTU are not used. -/
structure NodeUsable (f : NcFeat) (n : NcNode α) : Prop where
  names : (n.ifs.map (·.ifname)).Nodup
  system : ∀ m, SystemMtu f n m → MtuOk f n.ipv6 m ∧ ∀ x, f.minPhy = some x → x ≤ m
  ifs : ∀ i ∈ n.ifs, ∀ m, i.mtu = some m → ¬ SystemMtu f n m → MtuOk f i.ipv6 m

/-- The interface after the cleanup: it has an MTU when it is not the system MTU, and is marked when that is not a valid physical MTU. -/
structure IntfCleaned (f : NcFeat) (n : NcNode α) (i i' : NcIntf α) : Prop where
  ifname : i'.ifname = i.ifname
  ipv6 : i'.ipv6 = i.ipv6
  rest : i'.rest = i.rest
  mtu : ∀ m, i'.mtu = some m ↔ i.mtu = some m ∧ ¬ SystemMtu f n m
  mark : i'.ipMtu = true ↔ i.ipMtu = true ∨ ∃ m x, i'.mtu = some m ∧ f.minPhy = some x ∧ m < x

end Netlab.Spec
