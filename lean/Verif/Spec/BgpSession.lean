import Verif.Model.BgpSession
/-!
# Specification vocabulary for BGP sessions
-/

namespace Netlab.Spec

/-- Session attributes applied to sessions of the given type: by default all of them on EBGP sessions, none of them on
IBGP sessions. -/
def Applied (all : List String) (n : SNode) (type : String) (a : String) : Prop :=
  match n.apply with
  | none => type = "ebgp" ∧ a ∈ all
  | some (i, e) => (type = "ibgp" ∧ ∃ s, i = some s ∧ (s = .all ∧ a ∈ all ∨ ∃ l, s = .list l ∧ a ∈ l)) ∨
      (type = "ebgp" ∧ ∃ s, e = some s ∧ (s = .all ∧ a ∈ all ∨ ∃ l, s = .list l ∧ a ∈ l))

/-- The value of an attribute for a session: the value from the interface (EBGP sessions), or else the value from the
node, or no value. -/
def Configured (n : SNode) (e : SNgb) (a : String) (v : Nat) : Prop :=
  v ≠ 0 ∧
  ((e.type = "ebgp" ∧ ∃ i ∈ n.intfs, e.ifindex = some i.ifindex ∧ e.vrf = i.vrf ∧ i.attrs.lookup a = some v) ∨
   (n.attrs.lookup a = some v ∧
     ¬ (e.type = "ebgp" ∧ ∃ i ∈ n.intfs, e.ifindex = some i.ifindex ∧ e.vrf = i.vrf ∧
        ∃ w, i.attrs.lookup a = some w ∧ w ≠ 0)))

/-- The node is a BGP route server. -/
def IsRs (all : List String) (n : SNode) : Prop :=
  n.bgp = true ∧ (∃ v, n.attrs.lookup "rs" = some v ∧ v ≠ 0) ∧ Applied all n "ebgp" "rs"

/-- The node with the given name is a BGP route server. -/
def NameIsRs (all : List String) (t : List SNode) (b : String) : Prop :=
  ∃ m ∈ t, m.name = b ∧ IsRs all m

/-- Sessions removed because of route servers: sessions between route servers, and sessions between other routers on
interfaces toward a route server. -/
def RemovedSession (all : List String) (t : List SNode) (n : SNode) (e : SNgb) : Prop :=
  e.type = "ebgp" ∧
  ((IsRs all n ∧ NameIsRs all t e.name) ∨
   (¬ IsRs all n ∧ ¬ NameIsRs all t e.name ∧
     ∃ g ∈ n.ngbs, g.type = "ebgp" ∧ g.ifindex = e.ifindex ∧ NameIsRs all t g.name))

/-- Topologies produced by the BGP module: different names, different interfaces of a node, every EBGP session has an
interface and is known to both nodes, nodes without BGP have no sessions, and nothing is set by the plugin yet. -/
structure SaneSessions (t : List SNode) : Prop where
  names : (t.map (·.name)).Nodup
  ifindex : ∀ n ∈ t, (n.intfs.map (·.ifindex)).Nodup
  bgp : ∀ n ∈ t, n.ngbs ≠ [] → n.bgp = true
  intf : ∀ n ∈ t, ∀ e ∈ n.ngbs, e.type = "ebgp" → ∃ i ∈ n.intfs, e.ifindex = some i.ifindex ∧ e.vrf = i.vrf
  both : ∀ n ∈ t, ∀ e ∈ n.ngbs, e.type = "ebgp" →
    ∃ m ∈ t, m.name = e.name ∧ m.name ≠ n.name ∧ ∃ f ∈ m.ngbs, f.type = "ebgp" ∧ f.name = n.name
  clean : ∀ n ∈ t, ∀ e ∈ n.ngbs, e.rsClient = false ∧ e.zapped = false

/-- Route servers are set with node attributes only. -/
def NodeRsOnly (t : List SNode) : Prop :=
  ∀ n ∈ t, (∀ i ∈ n.intfs, i.attrs.lookup "rs" = none) ∧ (∀ e ∈ n.ngbs, e.attrs.lookup "rs" = none)

end Netlab.Spec
