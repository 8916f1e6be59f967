/-!
# Topology components

Expansion of included components into nodes, links and groups (`netsim/augment/components.py`).

Simplifications:

* node, link, interface and component attributes that are only copied are values of an arbitrary type `α`;
* components were normalized by `validate_components` without errors, `include` values are strings;
* attributes of an included group are the list of attributes copied into it (component first, node second), a component
  cannot have an attribute called `members`;
* errors are counted; `log.fatal` (too many nodes) and the unlimited recursion (recursive components) abort the
  expansion.  The recursion gets fuel.
-/

namespace Netlab

/-- A node in a topology or in a component: the included component and all other attributes,
`netsim/augment/components.py:89-114`. -/
structure CNode (α : Type) where
  incl : Option String
  data : α
deriving DecidableEq, Repr

/-- A link: name, link index, interfaces (node name and attributes) and attributes,
`netsim/augment/components.py:116-124`. -/
structure CLink (α : Type) where
  name : String
  index : Nat
  ends : List (String × α)
  data : α
deriving DecidableEq, Repr

/-- A component: `netsim/augment/components.py:26-45`. -/
structure Comp (α : Type) where
  nodes : List (String × CNode α)
  links : List (CLink α)
  data : α
deriving DecidableEq, Repr

/-- A group: `netsim/augment/components.py:134-149`. -/
structure CGroup (α : Type) where
  members : List String
  data : List α
deriving DecidableEq, Repr

/-- The lab topology: `netsim/augment/components.py:168-186`. -/
structure CTopo (α : Type) where
  nodes : List (String × CNode α)
  links : List (CLink α)
  groups : List (String × CGroup α)
  comps : List (String × Comp α)
  /-- `must_be_id` -/
  idOk : String → Bool
  /-- `defaults.link_index` -/
  firstLink : Nat
  /-- `MAX_NODE_ID` -/
  maxNodes : Nat
  errors : Nat

/-- Reasons for aborting the expansion: `netsim/augment/components.py:110-114`. -/
inductive CompAbort
  | tooMany
  | recursion
deriving DecidableEq, Repr

/-- `log.error`: `netsim/augment/components.py:98-101`. -/
def CTopo.err {α : Type} (t : CTopo α) : CTopo α := { t with errors := t.errors + 1 }

/-- Names of included nodes: `netsim/augment/components.py:91`. -/
def incName (n m : String) : String := n ++ "_" ++ m

/-- Add a node and check the number of nodes: `netsim/augment/components.py:109-114`. -/
def addIncluded {α : Type} (name : String) (d : CNode α) (t : CTopo α) : Except CompAbort (CTopo α) :=
  if t.maxNodes < t.nodes.length + 1 then .error .tooMany
  else .ok { t with nodes := t.nodes ++ [(name, d)] }

/-- The check of the identifier: `netsim/augment/components.py:92-96`. -/
def checkId {α : Type} (name : String) (t : CTopo α) : CTopo α := if t.idOk name then t else t.err

/-- One node of the component: `netsim/augment/components.py:90-114`.  `expand` is `expand_include`. -/
def incNode {α : Type} (expand : String → String → CNode α → CTopo α → Except CompAbort (CTopo α)) (n m : String)
    (d : CNode α) (t : CTopo α) : Except CompAbort (CTopo α) :=
  if (t.nodes.lookup (incName n m)).isSome then .ok t.err
  else
    match d.incl with
    | none => addIncluded (incName n m) d t
    | some c => if (t.comps.lookup c).isSome then expand (incName n m) c d t else .ok t.err

/-- `include_nodes`, `netsim/augment/components.py:89-114`. -/
def incNodes {α : Type} (expand : String → String → CNode α → CTopo α → Except CompAbort (CTopo α)) (n : String) :
    List (String × CNode α) → CTopo α → Except CompAbort (CTopo α)
  | [], t => .ok t
  | x :: rest, t =>
    match incNode expand n x.1 x.2 (checkId (incName n x.1) t) with
    | .error a => .error a
    | .ok t => incNodes expand n rest t

/-- `get_next_linkindex`, `netsim/augment/links.py:1105-1110`. -/
def nextLinkIndex {α : Type} (t : CTopo α) : Nat :=
  match t.links.getLast? with
  | none => t.firstLink
  | some l => l.index + 1

/-- The copy of a link: `netsim/augment/components.py:118-123`. -/
def incLink {α : Type} (n : String) (l : CLink α) (idx : Nat) : CLink α :=
  { l with
    name := incName n l.name
    index := idx
    ends := l.ends.map (fun e => (incName n e.1, e.2)) }

/-- `include_links`, `netsim/augment/components.py:116-124`. -/
def incLinks {α : Type} (n : String) : List (CLink α) → CTopo α → CTopo α
  | [], t => t
  | l :: rest, t => incLinks n rest { t with links := t.links ++ [incLink n l (nextLinkIndex t)] }

/-- The name of the group: `netsim/augment/components.py:127`. -/
def incGroupName (n : String) : String := "inc_" ++ n

/-- Group members: `netsim/augment/components.py:136-140`. -/
def incMembers {α : Type} (n : String) (c : Comp α) : List String :=
  c.nodes.map (fun x => if x.2.incl.isSome then incGroupName (incName n x.1) else incName n x.1)

/-- `create_included_group`, `netsim/augment/components.py:126-149`. -/
def incGroup {α : Type} (n : String) (d : CNode α) (c : Comp α) (t : CTopo α) : CTopo α :=
  if (t.groups.lookup (incGroupName n)).isSome then t.err
  else { t with groups := t.groups ++ [(incGroupName n, ⟨incMembers n c, [c.data, d.data]⟩)] }

/-- `expand_include`, `netsim/augment/components.py:151-159`; `cn` is `n_data.include`. -/
def expandInclude {α : Type} : Nat → String → String → CNode α → CTopo α → Except CompAbort (CTopo α)
  | 0, _, _, _, _ => .error .recursion
  | f + 1, n, cn, d, t =>
    match t.comps.lookup cn with
    | none => .ok t
    | some c =>
      match incNodes (expandInclude f) n c.nodes t with
      | .error a => .error a
      | .ok t => .ok (incGroup n d c (incLinks n c.links t))

/-- One node of the topology: `netsim/augment/components.py:175-183`. -/
def expandNode {α : Type} (f : Nat) (n : String) (t : CTopo α) : Except CompAbort (CTopo α) :=
  match t.nodes.lookup n with
  | none => .ok t
  | some d =>
    match d.incl with
    | none => .ok t
    | some c =>
      if (t.comps.lookup c).isSome then
        expandInclude f n c d { t with nodes := t.nodes.filter (fun x => x.1 != n) }
      else .ok { t with nodes := t.nodes.filter (fun x => x.1 != n) }.err

/-- The loop over nodes: `netsim/augment/components.py:175-183`. -/
def expandLoop {α : Type} (f : Nat) : List String → CTopo α → Except CompAbort (CTopo α)
  | [], t => .ok t
  | n :: rest, t =>
    match expandNode f n t with
    | .error a => .error a
    | .ok t => expandLoop f rest t

/-- `expand_components`, `netsim/augment/components.py:168-186`. -/
def expandComponents {α : Type} (f : Nat) (t : CTopo α) : Except CompAbort (CTopo α) :=
  expandLoop f (t.nodes.map Prod.fst) t

end Netlab
