/-!
# Providers of nodes and links (`netsim/providers/__init__.py`)
-/

namespace Netlab

/-- The parts of the lab topology used to select providers (`netsim/providers/__init__.py:266-300`) -/
structure ProvTopo where
  provider : String
  defProvider : String
  nodes : List (String × Option String)
  deriving DecidableEq, Repr

/-- `netsim/providers/__init__.py:271`: the set of used providers (as a list with duplicates) -/
def usedProviders (t : ProvTopo) : List String := t.nodes.map (fun n => n.2.getD t.provider)

/-- `netsim/providers/__init__.py:272`: `len(p_set) == 1`, and its element -/
def onlyProvider (t : ProvTopo) : Option String :=
  match usedProviders t with
  | [] => none
  | p :: rest => if rest.all (fun q => q == p) then some p else none

/-- `netsim/providers/__init__.py:283-300`: the second part of `select_primary_provider` -/
def selectMixed (multi : List String) (t : ProvTopo) : ProvTopo :=
  match multi.filter (fun x => (usedProviders t).contains x) with
  | [] => t
  | top :: _ =>
    if top == t.provider then t
    else
      { provider := top
        defProvider := top
        nodes := t.nodes.map (fun n => (n.1, some (n.2.getD t.provider))) }

/-- `netsim/providers/__init__.py:266-300` (`select_primary_provider`); `multi` is
`topology.defaults.const.multi_provider` -/
def selectPrimaryProvider (multi : List String) (t : ProvTopo) : ProvTopo :=
  match onlyProvider t with
  | some p => if t.provider != p then { t with provider := p } else selectMixed multi t
  | none => selectMixed multi t

/-- `netsim/augment/devices.py:108-109` (`get_provider`) -/
def getProvider (t : ProvTopo) (n : String × Option String) : String := n.2.getD t.defProvider

/-- A link with its nodes and providers (`netsim/providers/__init__.py:341-347`) -/
structure ProvLink where
  nodes : List String
  provider : List String
  deriving DecidableEq, Repr

/-- `l.provider[node.provider] = True` (`netsim/providers/__init__.py:347`) -/
def addProvider (l : List String) (p : String) : List String := if l.contains p then l else l ++ [p]

/-- `netsim/providers/__init__.py:342-347`: the loop over the nodes attached to a link -/
def markLoop (nodes : List (String × String)) : List String → List String → List String
  | acc, [] => acc
  | acc, n :: rest =>
    match nodes.lookup n with
    | none => markLoop nodes acc rest
    | some p => markLoop nodes (addProvider acc p) rest

/-- `netsim/providers/__init__.py:341-347`: providers of a link -/
def markLink (nodes : List (String × String)) (l : ProvLink) : ProvLink :=
  { l with provider := markLoop nodes l.provider l.nodes }

/-- `netsim/providers/__init__.py:333-347` (`mark_providers`): the nodes with their providers, and the links -/
def markProviders (t : ProvTopo) (links : List ProvLink) : List (String × String) × List ProvLink :=
  let nodes := t.nodes.map (fun n => (n.1, n.2.getD t.provider))
  (nodes, links.map (markLink nodes))

/-- `netsim/providers/__init__.py:350-358` (`select_topology`): nodes with the `unmanaged` flag set by the
function, and the links of the provider -/
def selectTopology (nodes : List (String × String)) (links : List ProvLink) (p : String) :
    List (String × Bool) × List ProvLink :=
  (nodes.map (fun n => (n.1, n.2 != p)), links.filter (fun l => l.provider.contains p))

end Netlab
