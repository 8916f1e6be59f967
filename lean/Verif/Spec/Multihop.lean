import Verif.Model.Multihop
import Mathlib.Data.List.Forall2
/-!
# Specification vocabulary for EBGP multihop sessions
-/

namespace Netlab.Spec

/-- The interface is the (first) loopback interface of the VRF on the node. -/
def LoopbackOf (n : MhNode) (v : String) (i : MhIf) : Prop :=
  ∃ pre post, n.ifs = pre ++ i :: post ∧ i.type = "loopback" ∧ i.vrf = some v ∧
    ∀ j ∈ pre, ¬ (j.type = "loopback" ∧ j.vrf = some v)

/-- The other end of the session is in a VRF with this loopback. -/
def RemoteLoopback (t : List MhNode) (g : MhNgb) (i : MhIf) : Prop :=
  ∃ v m, g.vrf = some v ∧ m ∈ t ∧ m.name = g.name ∧ LoopbackOf m v i

/-- EBGP sessions, also between routers with the same AS number after the local AS is used -/
def EbgpLike (g : MhNgb) : Prop := g.type = "ebgp" ∨ g.type = "localas_ibgp"

/-- EBGP multihop session -/
def MultihopSession (g : MhNgb) : Prop := EbgpLike g ∧ ∃ h, g.multihop = some h ∧ h ≠ 0

/-- The node has interfaces created for multihop sessions. -/
def HasSessions (n : MhNode) : Prop :=
  (∃ i ∈ n.ifs, i.fake = true) ∨ ∃ v ∈ n.vrfs, ∃ l, v.2.ospf = some l ∧ ∃ i ∈ l, i.fake = true

/-- Interfaces that were not created for multihop sessions -/
def RealInterfaces (l : List MhIf) : List MhIf := l.filter (fun i => i.fake = false)

/-- Is the address family active after the selection `set` (lists for IPv4 and IPv6 sessions) is applied to a neighbor with
the given addresses?  `before` is the previous value; `valid` are the known address families. -/
def AfValue (valid set : List String × List String) (ipv4 ipv6 : Bool) (a : String) (before : Option String) :
    Option String :=
  if ipv6 ∧ a ∈ valid.2 then (if a ∈ set.2 then some "True" else none)
  else if ipv4 ∧ a ∈ valid.1 then (if a ∈ set.1 then some "True" else none)
  else before

/-- What happens to a neighbor `g` of node `n`; `src` is the VRF of the session on the node. -/
def NgbAfter (ip : String → String) (valid : List String × List String) (glob : Option (List String × List String))
    (t : List MhNode) (n : MhNode) (src : Option String) (g g' : MhNgb) : Prop :=
  g'.name = g.name ∧ g'.type = g.type ∧ g'.multihop = g.multihop ∧ g'.vrf = g.vrf ∧
  -- addresses: loopback of the VRF on the other end
  (∀ l, MultihopSession g → RemoteLoopback t g l → g'.ipv4 = l.ipv4.map ip ∧ g'.ipv6 = l.ipv6.map ip) ∧
  ((¬ MultihopSession g ∨ ∀ l, ¬ RemoteLoopback t g l) → g'.ipv4 = g.ipv4 ∧ g'.ipv6 = g.ipv6) ∧
  -- source of the session: loopback of the node or of the VRF on the node
  (MultihopSession g → (g.vrf = none ∨ ∃ l, RemoteLoopback t g l) →
    (src = none → g'.source = n.loopback) ∧ (∀ v, src = some v → ∃ l, LoopbackOf n v l ∧ g'.source = some l)) ∧
  (¬ (MultihopSession g ∧ (g.vrf = none ∨ ∃ l, RemoteLoopback t g l)) → g'.source = g.source) ∧
  -- address families
  (∀ s, HasSessions n → EbgpLike g → g.multihop ≠ none →
    (n.activate = some s ∨ n.activate = none ∧ glob = some s) →
    ∀ a, (a = "ipv4" ∨ a = "ipv6" →
        g'.activate.lookup a = AfValue valid s g'.ipv4.isSome g'.ipv6.isSome a (g.activate.lookup a) ∧
        g'.flags.lookup a = g.flags.lookup a) ∧
      (a ≠ "ipv4" → a ≠ "ipv6" →
        g'.flags.lookup a = AfValue valid s g'.ipv4.isSome g'.ipv6.isSome a (g.flags.lookup a) ∧
        g'.activate.lookup a = g.activate.lookup a)) ∧
  ((¬ HasSessions n ∨ ¬ EbgpLike g ∨ g.multihop = none ∨ (n.activate = none ∧ glob = none)) →
    g'.activate = g.activate ∧ g'.flags = g.flags)

/-- What happens to a node -/
def NodeAfter (ip : String → String) (valid : List String × List String) (glob : Option (List String × List String))
    (t : List MhNode) (n n' : MhNode) : Prop :=
  n'.name = n.name ∧ n'.loopback = n.loopback ∧ n'.ifs = RealInterfaces n.ifs ∧
  List.Forall₂ (NgbAfter ip valid glob t n none) n.ngbs n'.ngbs ∧
  List.Forall₂ (fun v v' => v'.1 = v.1 ∧ v'.2.ospf = v.2.ospf.map RealInterfaces ∧
    List.Forall₂ (NgbAfter ip valid glob t n (some v.1)) v.2.ngbs v'.2.ngbs) n.vrfs n'.vrfs ∧
  ("ebgp.multihop" ∈ n'.config ↔ "ebgp.multihop" ∈ n.config ∨ HasSessions n)

end Netlab.Spec
