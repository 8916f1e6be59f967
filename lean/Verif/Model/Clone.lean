import Verif.Model.Box
/-!
# Node cloning

The `node.clone` plugin (`netsim/extra/node.clone/plugin.py`).

Simplifications:

* links are already in the normalized form (see `Verif.Model.LinkNorm`); interface and link attributes that are only
  copied are values of an arbitrary type `α`;
* members of link aggregation groups are links (not nested groups);
* `linkitems.remove` compares links by value, as Python does;
* node names are the result of a formatting parameter (`strings.eval_format`);
* an explicit node identifier is an integer.
-/

namespace Netlab

/-- An interface on a link: `netsim/extra/node.clone/plugin.py:17-23`. -/
structure KIf (α : Type) where
  node : String
  ifindex : Option Nat
  data : α
deriving DecidableEq, Repr

/-- A link: `netsim/extra/node.clone/plugin.py:12-25`. -/
structure KLink (α : Type) where
  ifs : List (KIf α)
  data : α
deriving DecidableEq, Repr

/-- An element of the list of links: a link or a link aggregation group,
`netsim/extra/node.clone/plugin.py:75-78`. -/
inductive KItem (α : Type)
  | link (l : KLink α)
  | lag (ifindex : Option Nat) (data : α) (members : List (KLink α))
deriving DecidableEq, Repr

variable {α : Type}

/-- The interface in the link of the clone number `c`: `netsim/extra/node.clone/plugin.py:18-22`. -/
def cloneIf (n clone : String) (c : Nat) (i : KIf α) : KIf α :=
  if i.node = n then { i with node := clone } else { i with ifindex := i.ifindex.map (· + c) }

/-- `clone_link`, `netsim/extra/node.clone/plugin.py:11-25`. -/
def cloneLink (n : String) (clones : List String) (l : KLink α) : List (KLink α) :=
  if l.ifs.any (fun i => i.node == n) then
    clones.zipIdx.map (fun x => { l with ifs := l.ifs.map (cloneIf n x.1 x.2) })
  else []

/-- Interface indices in members of cloned groups: `netsim/extra/node.clone/plugin.py:49-51`. -/
def bumpLink (c : Nat) (l : KLink α) : KLink α :=
  { l with ifs := l.ifs.map (fun i => { i with ifindex := i.ifindex.map (· + c) }) }

/-- The index of the cloned group: `netsim/extra/node.clone/plugin.py:45-46`. -/
def lagIndex (ix : Option Nat) (c : Nat) : Option Nat := ix.map (fun i => if i = 0 then 0 else i + c)

/-- `clone_lag`, `netsim/extra/node.clone/plugin.py:30-54`: only the cloned members of the group are used. -/
def cloneLag (n : String) (clones : List String) (ix : Option Nat) (data : α) (members : List (KLink α)) :
    List (KItem α) :=
  let cloned := (members.map (cloneLink n clones)).filter (fun l => !l.isEmpty)
  if cloned.isEmpty then []
  else clones.zipIdx.map (fun x => .lag (lagIndex ix x.2) data (cloned.filterMap (fun l => (l[x.2]?).map (bumpLink x.2))))

/-- The clones of an element of the list of links: `netsim/extra/node.clone/plugin.py:75-78`. -/
def cloneItem (n : String) (clones : List String) : KItem α → List (KItem α)
  | .link l => (cloneLink n clones l).map .link
  | .lag ix data members => cloneLag n clones ix data members

/-- The loop in `process_links`, `netsim/extra/node.clone/plugin.py:68-83`: the first list is a copy of the second one. -/
def processLinks [DecidableEq α] (n : String) (clones : List String) : List (KItem α) → List (KItem α) → List (KItem α)
  | [], items => items
  | l :: rest, items =>
    match cloneItem n clones l with
    | [] => processLinks n clones rest items
    | cl => processLinks n clones rest (items.erase l ++ cl)

/-- Parts of the topology changed by the plugin: `netsim/extra/node.clone/plugin.py:98-154`.  Links in VLANs and VRFs
are kept in one list. -/
structure KTopo (α : Type) where
  nodes : List (String × List (String × Val))
  links : List (KItem α)
  groups : List (String × List String)
  segments : List (String × List (KItem α))
  errors : Nat

/-- A positive integer: `netsim/extra/node.clone/plugin.py:106` -/
def posInt : Val → Option Nat
  | .int i => if 0 < i then some i.toNat else none
  | _ => none

/-- Cloning parameters (start, step, count): `netsim/extra/node.clone/plugin.py:99-109`; `none` is an error. -/
def cloneParams (p : List (String × Val)) : Option (Nat × Nat × Nat) :=
  let q := mergeDict [("start", .int 1), ("step", .int 1)] p
  if q.all (fun x => (posInt x.2).isSome) then
    match (q.lookup "start").bind posInt, (q.lookup "step").bind posInt, (q.lookup "count").bind posInt with
    | some a, some b, some c => some (a, b, c)
    | _, _, _ => none
  else none

/-- Clone identifiers: `netsim/extra/node.clone/plugin.py:118` -/
def cloneIds (p : Nat × Nat × Nat) : List Nat := (List.range p.2.2).map (fun k => p.1 + k * p.2.1)

/-- Attributes of a clone: `netsim/extra/node.clone/plugin.py:119-124`. -/
def cloneAttrs (node : List (String × Val)) (name : String) (c : Nat) : List (String × Val) :=
  let a := setKey (setKey node "name" (.str name)) "interfaces" (.list [])
  match node.lookup "id" with
  | some (.int i) => setKey a "id" (.int (i + c - 1))
  | _ => a

/-- Add a clone to nodes: `netsim/extra/node.clone/plugin.py:125-127`. -/
def addClone (nodes : List (String × List (String × Val))) (name : String) (attrs : List (String × Val)) :
    List (String × List (String × Val)) :=
  match nodes.lookup name with
  | none => setKey nodes name attrs
  | some old => setKey nodes name (mergeDict attrs old)

/-- Add all clones: `netsim/extra/node.clone/plugin.py:118-128`. -/
def addClones (fmt : Nat → String) (node : List (String × Val)) :
    List Nat → List (String × List (String × Val)) → List (String × List (String × Val))
  | [], nodes => nodes
  | c :: rest, nodes => addClones fmt node rest (addClone nodes (fmt c) (cloneAttrs node (fmt c) c))

/-- Group members: `netsim/extra/node.clone/plugin.py:133-139`. -/
def cloneGroup (n : String) (clones : List String) (g : String × List String) : String × List String :=
  if g.1.toList.head? == some '_' then g
  else if g.2.contains n then (g.1, g.2.erase n ++ clones) else g

/-- The names of clones: `netsim/extra/node.clone/plugin.py:117-128`. -/
def cloneNames (fmt : Nat → String) (p : Nat × Nat × Nat) : List String := (cloneIds p).map fmt

/-- `clone_node`, `netsim/extra/node.clone/plugin.py:98-147`.  `fmt` gets node attributes (without `clone`). -/
def cloneNode [DecidableEq α] (fmt : List (String × Val) → Nat → String) (n : String) (clone : List (String × Val))
    (node : List (String × Val)) (t : KTopo α) : KTopo α :=
  match cloneParams clone with
  | none => { t with errors := t.errors + 1 }
  | some p =>
    if (node.lookup "include").isSome then { t with errors := t.errors + 1 }
    else
      let clones := cloneNames (fmt node) p
      { t with
        nodes := popKey (addClones (fmt node) node (cloneIds p) t.nodes) n
        links := processLinks n clones t.links t.links
        groups := t.groups.map (cloneGroup n clones)
        segments := t.segments.map (fun s => (s.1, processLinks n clones s.2 s.2)) }

/-- One node in `topology_expand`: `netsim/extra/node.clone/plugin.py:152-154`.  The `clone` attribute is removed from
the node before anything else happens. -/
def expandClone [DecidableEq α] (fmt : List (String × Val) → Nat → String) (t : KTopo α)
    (x : String × List (String × Val)) : KTopo α :=
  match x.2.lookup "clone" with
  | some (.dict p) =>
    let node := popKey x.2 "clone"
    cloneNode fmt x.1 p node { t with nodes := t.nodes.map (fun y => if y.1 = x.1 then (y.1, popKey y.2 "clone") else y) }
  | _ => t

/-- `topology_expand`, `netsim/extra/node.clone/plugin.py:151-154`. -/
def expandClones [DecidableEq α] (fmt : List (String × Val) → Nat → String) (t : KTopo α) : KTopo α :=
  t.nodes.foldl (expandClone fmt) t

end Netlab
