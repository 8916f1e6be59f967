import Verif.Model.Igp
/-!
# Specification vocabulary for IGP interfaces
-/

namespace Netlab.Spec

/-- Should a routing protocol run on an interface: not an external interface, protocol not turned
off on the interface, and the interface has an IPv4 or IPv6 address (static or DHCP). -/
def RunsIgp (i : IgpIntf) : Prop :=
  i.role ≠ "external" ∧ i.igp ≠ .off ∧ ("ipv4" ∈ i.af ∨ "ipv4" ∈ i.dhcp ∨ "ipv6" ∈ i.af ∨ "ipv6" ∈ i.dhcp)

instance (i : IgpIntf) : Decidable (RunsIgp i) := by unfold RunsIgp; infer_instance

/-- The `passive` flag configured by the user. -/
def explicitPassive (i : IgpIntf) : Option Bool :=
  match i.igp with
  | .data d => d.passive
  | _ => none

/-- The network type configured by the user (`none` = not configured, `some ""` = removed). -/
def explicitType (i : IgpIntf) : Option String :=
  match i.igp with
  | .data d => d.ntype.map (·.getD "")
  | _ => none

/-- Should the interface be passive?  The user said so, or the user said nothing and the link is a
passive or external link, a link with a single node, or a stub link on which no neighbor runs
the protocol. -/
def ShouldBePassive (runs : String → Bool) (i : IgpIntf) : Prop :=
  explicitPassive i = some true ∨
  (explicitPassive i = none ∧
    (i.role = "passive" ∨ i.role = "external" ∨ i.type = "stub" ∨
      (i.role = "stub" ∧ ∀ n ∈ i.ngb, runs n = false)))

/-- Relation between an interface in the input and the interface running the protocol. -/
def IgpConfigured (runs : String → Bool) (i o : IgpIntf) : Prop :=
  o.name = i.name ∧ o.ngb = i.ngb ∧ o.vrf = i.vrf ∧ ∃ d, o.igp = .data d ∧
    (d.passive = some true ↔ ShouldBePassive runs i) ∧
    (d.passive = some false ↔ ¬ ShouldBePassive runs i) ∧
    d.ntype = match explicitType i with
      | none => if i.ngb.length = 1 then some (some "point-to-point") else none
      | some t => if t = "" then none else some (some t)

end Netlab.Spec
