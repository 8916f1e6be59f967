import Verif.Model.PoolSetup
import Verif.Spec.Pools

namespace Netlab.Spec

open Netlab

/-- Every attribute of the merged pool comes from the user's definition or, when it is not there, from the legacy one. -/
structure MergedPool (old new c : PdPool) : Prop where
  ipv4 : c.ipv4 = new.ipv4.or old.ipv4
  ipv6 : c.ipv6 = new.ipv6.or old.ipv6
  pfx : c.pfx = new.pfx.or old.pfx
  prefix6 : c.prefix6 = new.prefix6.or old.prefix6
  unnumbered : c.unnumbered = new.unnumbered.or old.unnumbered
  allocation : c.allocation = new.allocation.or old.allocation

/-- The definition of the pool that is in effect. -/
inductive Effective (legacy : List (String × PdPool)) (addrs : List (String × PdDef)) (name : String) : PdDef → Prop where
  | legacy (p : PdPool) : addrs.lookup name = none → legacy.lookup name = some p → Effective legacy addrs name (.dict p)
  | user (d : PdDef) : addrs.lookup name = some d → (legacy.lookup name = none ∨ ∀ q, d ≠ .dict q) → Effective legacy addrs name d
  | merged (a b c : PdPool) : legacy.lookup name = some a → addrs.lookup name = some (.dict b) → MergedPool a b c → Effective legacy addrs name (.dict c)

/-- All prefixes in the definition that are used are networks. -/
def Readable : PdDef → Prop
  | .null => True
  | .text n => n ≠ none
  | .dict p => p.unnumbered = none → p.ipv4 ≠ some .bad ∧ p.ipv6 ≠ some .bad

/-- An address family of a pool: an unnumbered pool has none, and `false` removes the address family. -/
def KeptAf (p : PdPool) (a : Option PdAf) : Option PdAf := if p.unnumbered ≠ none ∨ a = some (.flag false) then none else a

/-- A definition turned into a dictionary. -/
def PoolNormal (d : PdDef) (b : PdPool) : Prop :=
  (d = .null ∧ b = {}) ∨ (∃ n, d = .text (some n) ∧ b = { ipv4 := some (.net n) }) ∨
  (∃ p, d = .dict p ∧ b = { p with ipv4 := KeptAf p p.ipv4, ipv6 := KeptAf p p.ipv6 })

/-- The name contains the word `loopback`. -/
def LoopbackName (name : String) : Prop := ∃ a b, name.toList = a ++ "loopback".toList ++ b

/-- The final attributes of a pool: the IPv4 prefix length has a default value. -/
structure FinalPool (name : String) (b p : PdPool) : Prop where
  same : p = { b with pfx := p.pfx }
  given : b.pfx ≠ none ∨ b.ipv4 = none → p.pfx = b.pfx
  loopback : b.pfx = none → b.ipv4 ≠ none → LoopbackName name → p.pfx = some 32
  other : b.pfx = none → b.ipv4 ≠ none → ¬ LoopbackName name → p.pfx = some 24

/-- The final attributes of a pool with this name. -/
def PoolDef (legacy : List (String × PdPool)) (addrs : List (String × PdDef)) (name : String) (p : PdPool) : Prop :=
  ∃ d b, Effective legacy addrs name d ∧ PoolNormal d b ∧ FinalPool name b p

/-- A usable pool. -/
structure PoolOk (name : String) (p : PdPool) : Prop where
  v4 : ∀ n, p.ipv4 = some (.net n) → n.w = 32 ∧ (name ≠ "mgmt" → ∃ x, p.pfx = some x ∧ (n.plen : Int) ≤ x)
  v6 : ∀ n, p.ipv6 = some (.net n) → n.w = 128 ∧ (name ≠ "mgmt" → n.plen ≤ 56)
  len4 : ∀ x, p.pfx = some x → 1 ≤ x ∧ x ≤ 32
  len6 : ∀ x, p.prefix6 = some x → 1 ≤ x ∧ x ≤ 128

/-- Conditions that are not checked: networks are networks, IPv6 subnets are not larger than the IPv6 pool, and so are the subnets of the
management pool. -/
structure Unchecked (name : String) (p : PdPool) : Prop where
  wf4 : ∀ n, p.ipv4 = some (.net n) → n.WF
  wf6 : ∀ n, p.ipv6 = some (.net n) → n.WF
  len6 : ∀ n, p.ipv6 = some (.net n) → (n.plen : Int) ≤ p.prefix6.getD 64
  mgmt : name = "mgmt" → ∀ n, p.ipv4 = some (.net n) → (n.plen : Int) ≤ p.pfx.getD 24

/-- The named prefix has this network in the address family. -/
def NamedNet (st : NpState) (name af : String) (s : Net) : Prop :=
  ∃ p, st.pfxs.lookup name = some p ∧ p.data.lookup af = some (.net s)

/-- The named prefix should be taken from the pool. -/
def FromPool (st : NpState) (name pool : String) : Prop := ∃ p, st.pfxs.lookup name = some p ∧ p.pool = some pool

end Netlab.Spec
