import Verif.Model.ProviderNode
/-!
# Specification of forwarded ports and management addresses
-/

namespace Netlab.Spec

/-- Address belongs to a network: it has the same high-order bits. -/
def InNetwork (p : PvAddr) (x : Nat) : Prop := x / 2 ^ ((if p.v6 then 128 else 32) - p.plen) = p.addr / 2 ^ ((if p.v6 then 128 else 32) - p.plen)

/-- All addresses of the network of a management address belong to the prefix of the pool. -/
def WithinPool (a p : PvAddr) : Prop := a.v6 = p.v6 ∧ ∀ x, InNetwork a x → InNetwork p x

/-- The management address, when there is one, belongs to the pool prefix. -/
def MgmtOk (a p : Option PvAddr) : Prop := ∀ x, a = some x → ∃ y, p = some y ∧ WithinPool x y

/-- A service forwarded to a node -/
def Forwarded (fmap pmap : List (String × Int)) (id : Int) (host port : Int) : Prop :=
  ∃ name start, (name, start) ∈ fmap ∧ pmap.lookup name = some port ∧ host = start + id

end Netlab.Spec
