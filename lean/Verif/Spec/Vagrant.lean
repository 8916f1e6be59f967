import Verif.Model.Vagrant
import Mathlib.Data.List.Forall2
/-!
# Specification of Vagrant settings

UDP tunnels connect two endpoints: the address of an endpoint is created from the node ID, and the port number from the interface index
(`netsim/templates/provider/libvirt/libvirt-tunnel.j2:4-11`).
-/

namespace Netlab.Spec

/-- A link between two interfaces of virtual machines without libvirt attributes -/
structure TunnelLink (links : List VgLink) (k : Nat) (a b : String × Nat) : Prop where
  link : ∃ l, links.find? (fun l => l.index == k) = some l ∧ l.type = "p2p" ∧ l.providers = ["libvirt"] ∧ l.libvirt = none ∧ (l.ifs = [a, b] ∨ l.ifs = [b, a])
  index : k ≠ 0
  distinct : a ≠ b

/-- Endpoint of a UDP tunnel: node ID and port number -/
def tunnelLocal (id : Nat) (i : VgIntf) : Nat × Nat := (id, 10000 + i.ifindex)

/-- The remote endpoint of a tunnel -/
def TunnelRemote (i : VgIntf) (e : Nat × Nat) : Prop := ∃ id x, i.remoteId = some id ∧ i.remoteIfindex = some x ∧ e = (id, 10000 + x)

/-- The interface `i` of a node before and after the transformation -/
def IntfOf (ins outs : List (String × List VgIntf)) (node : String) (i o : VgIntf) : Prop :=
  ∃ n m : String × List VgIntf, (n, m) ∈ ins.zip outs ∧ n.1 = node ∧ (i, o) ∈ n.2.zip m.2

/-- Names of nodes started by a command -/
def StartCommand (start : String) (nodes : List String) : String := start ++ " " ++ " ".intercalate nodes

end Netlab.Spec
