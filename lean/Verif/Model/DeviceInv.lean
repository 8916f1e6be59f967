import Verif.Model.Access
/-!
# Device inventory

`create` in `netsim/outputs/devices.py`, also used to execute commands on lab devices.

Simplifications: names of nodes contain no dots; every address pool is a dictionary.
-/

namespace Netlab

/-- Python `sub in text`, `netsim/outputs/devices.py:22` -/
def diHas (sub : List Char) : List Char → Bool
  | [] => sub.isEmpty
  | c :: r => sub.isPrefixOf (c :: r) || diHas sub r

/-- Internal attributes of address pools, `netsim/outputs/devices.py:22` -/
def diInternal (k : String) : Bool := diHas "_pfx".toList k.toList || diHas "_eui".toList k.toList

/-- Remove internal attributes from address pools, `netsim/outputs/devices.py:20-23` -/
def diPools (pools : List (String × List (String × Val))) : List (String × Val) :=
  pools.map (fun p => (p.1, .dict (p.2.filter (fun x => !diInternal x.1))))

/-- Address pools in the inventory, `netsim/outputs/devices.py:16-23` -/
def diStart (addressing : List (String × List (String × Val))) : List (String × Val) :=
  if addressing.isEmpty then [] else [("all", .dict [("vars", .dict [("pools", .dict (diPools addressing))])])]

/-- Entries of nodes, `netsim/outputs/devices.py:25-30`; `groupVars` are the group variables of the device of the node. -/
def diNodes (groupVars : String → List (String × Val)) (p : AcProvider) :
    List (String × Val) → List (String × List (String × Val)) → Option (List (String × Val))
  | inv, [] => some inv
  | inv, n :: r =>
    match acHost (groupVars n.1) ["name"] p n.2 with
    | none => none
    | some h => diNodes groupVars p (setKey inv n.1 (.dict h)) r

/-- `create`, `netsim/outputs/devices.py:15-32`; `pools` is the format `pools` (`netsim/outputs/devices.py:48`). -/
def diCreate (groupVars : String → List (String × Val)) (p : AcProvider) (nodes : List (String × List (String × Val)))
    (pools : Bool) (addressing : List (String × List (String × Val))) : Option (List (String × Val)) :=
  diNodes groupVars p (if pools then diStart addressing else []) nodes

end Netlab
