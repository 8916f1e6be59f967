import Verif.Model.VrfNode
import Mathlib.Data.List.Forall2

namespace Netlab.Spec

open Netlab

/-- The interface is in the VRF and has an IPv4 address (or is unnumbered). -/
def InVrf4 (i : VnIf) (vn : String) : Prop := i.vrf = some vn ∧ i.ipv4 ≠ none

/-- The interface is in the VRF and has an IPv6 address. -/
def InVrf6 (i : VnIf) (vn : String) : Prop := i.vrf = some vn ∧ i.ipv6 ≠ none

/-- The VRF module is used on the node: an interface is in a VRF, or a VRF can have a loopback. -/
def UsesVrf (n : VnNode) : Prop :=
  (∃ i ∈ n.ifs, i.vrf ≠ none) ∨ ∃ p ∈ n.vrfs, p.2.loopback ≠ .missing ∨ n.lb = true

/-- The VRF exchanges routes with other VRFs: it imports or exports a route target that is not its RD. -/
def Leaks (v : VnVrf) : Prop :=
  (v.imp ≠ [] ∧ ∀ r, v.rd = some r → v.imp ≠ [r]) ∨ (v.exp ≠ [] ∧ ∀ r, v.rd = some r → v.exp ≠ [r])

/-- A usable AS number. -/
def AsUsable (a : Option Int) : Prop := ∃ x, a = some x ∧ x ≠ 0

/-- The VRF should have a loopback. -/
def WantsLb (lb : Bool) (v : VnVrf) : Prop := v.loopback = .on ∨ (∃ a b, v.loopback = .given a b) ∨ lb = true

/-- The loopback interface of the VRF with these addresses. -/
structure LbOf (vn : String) (a : Option String × Option String) (i : VnIf) : Prop where
  loopback : i.loopback = true
  vrf : i.vrf = some vn
  ipv4 : i.ipv4 = a.1.map VnAddr.addr
  ipv6 : i.ipv6 = a.2.map VnAddr.addr

/-- An interface before and after loopbacks are created: only the parent of an unnumbered interface changes, it's the
loopback of its VRF with an IPv4 address (when there is one). -/
structure Kept (lbs : List VnIf) (i j : VnIf) : Prop where
  same : j = { i with parent := j.parent }
  parent : i.ipv4 = some .unnumbered → i.vrf ≠ none → ∀ l ∈ lbs, l.vrf = i.vrf → ∀ a, l.ipv4 = some (.addr a) →
    j.parent = some (l.name, a)
  other : (i.ipv4 ≠ some .unnumbered ∨ i.vrf = none ∨ ∀ l ∈ lbs, l.vrf = i.vrf → l.ipv4 = none) → j.parent = i.parent

/-- Addresses of loopbacks of VRFs, in the order of VRFs: addresses specified in the VRF, or the next addresses from the
pool; a VRF without addresses does not get a loopback.  The numbers are the first and the last allocation. -/
inductive LbPlan (pool : Nat → Option String × Option String) (lb : Bool) :
    Nat → List (String × VnVrf) → List (String × Option String × Option String) → Nat → Prop
  | nil (k : Nat) : LbPlan pool lb k [] [] k
  /-- the VRF does not need a loopback -/
  | skip (k k' : Nat) (vn : String) (v : VnVrf) (rest : List (String × VnVrf))
      (out : List (String × Option String × Option String)) (h : ¬ WantsLb lb v)
      (hr : LbPlan pool lb k rest out k') : LbPlan pool lb k ((vn, v) :: rest) out k'
  /-- addresses specified in the VRF -/
  | given (k k' : Nat) (vn : String) (v : VnVrf) (a b : Option String) (rest : List (String × VnVrf))
      (out : List (String × Option String × Option String)) (h : v.loopback = .given a b)
      (hne : a ≠ none ∨ b ≠ none) (hr : LbPlan pool lb k rest out k') :
      LbPlan pool lb k ((vn, v) :: rest) ((vn, a, b) :: out) k'
  /-- invalid addresses specified in the VRF -/
  | invalid (k k' : Nat) (vn : String) (v : VnVrf) (rest : List (String × VnVrf))
      (out : List (String × Option String × Option String)) (h : v.loopback = .given none none)
      (hr : LbPlan pool lb k rest out k') : LbPlan pool lb k ((vn, v) :: rest) out k'
  /-- addresses from the pool -/
  | pool (k k' : Nat) (vn : String) (v : VnVrf) (rest : List (String × VnVrf))
      (out : List (String × Option String × Option String)) (h : WantsLb lb v)
      (hg : ∀ a b, v.loopback ≠ .given a b) (hne : pool k ≠ (none, none)) (hr : LbPlan pool lb (k + 1) rest out k') :
      LbPlan pool lb k ((vn, v) :: rest) ((vn, pool k) :: out) k'
  /-- the pool has no addresses -/
  | empty (k k' : Nat) (vn : String) (v : VnVrf) (rest : List (String × VnVrf))
      (out : List (String × Option String × Option String)) (h : WantsLb lb v)
      (hg : ∀ a b, v.loopback ≠ .given a b) (hne : pool k = (none, none)) (hr : LbPlan pool lb (k + 1) rest out k') :
      LbPlan pool lb k ((vn, v) :: rest) out k'

end Netlab.Spec
