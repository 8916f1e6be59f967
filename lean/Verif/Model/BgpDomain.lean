import Verif.Model.Box
/-!
# BGP domains (`netsim/extra/bgp.domain/plugin.py:15-58`)

Attributes of neighbors that are not used are values of an arbitrary type.
-/

namespace Netlab

/-- A BGP neighbor (`netsim/extra/bgp.domain/plugin.py:33-45`) -/
structure BdNbr (α : Type) where
  type : String
  name : String
  rr : Bool
  rest : α
  deriving Repr, DecidableEq

/-- A node (`netsim/extra/bgp.domain/plugin.py:19-32`): does it run BGP, `bgp.domain`, `bgp.as`, `bgp.rr`, neighbors -/
structure BdNode (α : Type) where
  name : String
  bgp : Bool
  domain : Option String
  asn : Option Nat
  rr : Bool
  nbrs : List (BdNbr α)
  deriving Repr, DecidableEq

/-- `ndata.get('bgp.domain','default')` (`netsim/extra/bgp.domain/plugin.py:23`) -/
def bdDomain (n : BdNode α) : String := n.domain.getD "default"

/-- `str(ndata.get('bgp.as'))` (`netsim/extra/bgp.domain/plugin.py:24`) -/
def bdAs (n : BdNode α) : String :=
  match n.asn with
  | none => "None"
  | some a => toString a

/-- `netsim/extra/bgp.domain/plugin.py:25` -/
def bdKey (n : BdNode α) : String := bdDomain n ++ ":" ++ bdAs n

/-- Domain of a node with this name (`netsim/extra/bgp.domain/plugin.py:40`) -/
def bdFind (nodes : List (BdNode α)) (name : String) : Option String := (nodes.find? (fun n => n.name == name)).map bdDomain

/-- `if n_domain_as not in rr_domain_as: rr_domain_as[n_domain_as] = False` (`netsim/extra/bgp.domain/plugin.py:42-43`) -/
def bdMark (m : List (String × Bool)) (k : String) : List (String × Bool) :=
  if (m.lookup k).isSome then m else setKey m k false

/-- The loop over neighbors in `netsim/extra/bgp.domain/plugin.py:33-45`: the new list and flags; `none` is a crash. -/
def bdNbrs (nodes : List (BdNode α)) (n : BdNode α) : List (BdNbr α) → List (String × Bool) → Option (List (BdNbr α) × List (String × Bool))
  | [], m => some ([], m)
  | x :: r, m =>
    if x.type ≠ "ibgp" then (bdNbrs nodes n r m).map (fun y => (x :: y.1, y.2))
    else match bdFind nodes x.name with
      | none => none
      | some d =>
        if d ≠ bdDomain n then bdNbrs nodes n r (if x.rr then bdMark m (bdKey n) else m)
        else (bdNbrs nodes n r m).map (fun y => (x :: y.1, y.2))

/-- The loop over nodes in `netsim/extra/bgp.domain/plugin.py:19-47`; domains do not change in the loop. -/
def bdNodes (nodes : List (BdNode α)) : List (BdNode α) → List (String × Bool) → Option (List (BdNode α) × List (String × Bool))
  | [], m => some ([], m)
  | n :: r, m =>
    if n.bgp then
      match bdNbrs nodes n n.nbrs (if n.rr then setKey m (bdKey n) true else m) with
      | none => none
      | some x => (bdNodes nodes r x.2).map (fun y => ({ n with nbrs := x.1 } :: y.1, y.2))
    else (bdNodes nodes r m).map (fun y => (n :: y.1, y.2))

/-- One flag in `netsim/extra/bgp.domain/plugin.py:49-58`: number of errors; a key with more than one colon is a crash. -/
def bdReport (p : String × Bool) : Option Nat :=
  if p.2 then some 0 else if p.1.toList.count ':' = 1 then some 1 else none

/-- `netsim/extra/bgp.domain/plugin.py:15-58` (`post_transform`): nodes and the number of errors; `none` is a crash. -/
def bgpDomain (nodes : List (BdNode α)) : Option (List (BdNode α) × Nat) :=
  match bdNodes nodes nodes [] with
  | none => none
  | some x => (x.2.mapM bdReport).map (fun e => (x.1, e.sum))

end Netlab
