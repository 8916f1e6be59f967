import Verif.Model.Files
/-!
# Topology data for the Graphite tool (`netsim/tools/graphite.py`)
-/

namespace Netlab

/-- Replace the first occurrence of a text (`netsim/tools/graphite.py:37`, `n.replace(long_name,…,1)`) -/
def replaceOnce (x y : List Char) : List Char → List Char
  | [] => if x.isEmpty then y else []
  | c :: r => if x.isPrefixOf (c :: r) then y ++ (c :: r).drop x.length else c :: replaceOnce x y r

/-- `netsim/tools/graphite.py:25-30` -/
def shortIfTable : List (String × String) :=
  [("GigabitEthernet", "ge"), ("Ethernet", "eth"), ("ethernet", "eth"), ("ether", "eth")]

/-- `netsim/tools/graphite.py:32-39` (`short_ifname`) -/
def shortIfname (n : String) : String :=
  match shortIfTable.find? (fun p => subStr p.1.toList n.toList) with
  | some p => String.ofList (replaceOnce p.1.toList p.2.toList n.toList)
  | none => n

/-- Attributes of a node used in the graph (`netsim/tools/graphite.py:43-65`); zero or a missing AS number is `none`. -/
structure GphNode where
  name : String
  device : String
  mgmt : Option String
  box : String
  icon : Option String
  deviceIcon : Option String
  level : Option Int
  asn : Option Nat

/-- An interface on a link (`netsim/tools/graphite.py:104-107`) -/
structure GphIntf where
  node : String
  ifname : String
  deriving DecidableEq

/-- A link (`netsim/tools/graphite.py:68-78,99-101`) -/
structure GphLink where
  type : String
  count : Nat
  index : Nat
  bridge : Option String
  intfs : List GphIntf

/-- A node of the graph (`netsim/tools/graphite.py:53-64,79-88`); `kind` is the device of a node or the host bridge. -/
inductive GphKind where
  | device (d : String)
  | bridge (b : Option String)
  deriving DecidableEq

/-- A node of the graph with its attributes (`netsim/tools/graphite.py:53-64,79-88`) -/
structure GphItem where
  kind : GphKind
  mgmt : Option String
  image : String
  group : String
  level : Int
  icon : String
  deriving DecidableEq

/-- `netsim/tools/graphite.py:49-52,74-77` -/
def gphGroup (n : GphNode) : String :=
  match n.asn with
  | some a => if a = 0 then "tier-1" else "as" ++ toString a
  | none => "tier-1"

/-- `netsim/tools/graphite.py:44-48`: an empty icon name is ignored. -/
def gphIcon (n : GphNode) : String :=
  match n.icon.filter (· ≠ "") with
  | some i => i
  | none => (n.deviceIcon.filter (· ≠ "")).getD "router"

/-- `netsim/tools/graphite.py:23,78,121` -/
def gphBridgeName (l : GphLink) : String := "(" ++ l.type ++ ":" ++ toString l.index ++ ")"

/-- Set a value in a dictionary (`netsim/tools/graphite.py:53,79`) -/
def gphSet (r : List (String × GphItem)) (k : String) (v : GphItem) : List (String × GphItem) :=
  if r.any (fun p => p.1 == k) then r.map (fun p => if p.1 == k then (k, v) else p) else r ++ [(k, v)]

/-- `netsim/tools/graphite.py:43-64` -/
def gphNodeItem (n : GphNode) : GphItem :=
  ⟨.device n.device, n.mgmt, n.box, gphGroup n, n.level.getD 1, gphIcon n⟩

/-- `netsim/tools/graphite.py:69`: the link needs a node in the graph. -/
def gphNeedsBridge (l : GphLink) : Bool := (l.type == "lan" && l.count != 2) || l.type == "stub"

/-- `netsim/tools/graphite.py:72-88`: `none` when the link has no interface or the node does not exist (the command crashes). -/
def gphBridgeItem (nodes : List GphNode) (l : GphLink) : Option GphItem :=
  match l.intfs with
  | [] => none
  | i :: _ =>
    match nodes.find? (fun n => n.name == i.node) with
    | none => none
    | some n => some ⟨.bridge l.bridge, none, "", gphGroup n, n.level.getD 1, "expand"⟩

/-- `netsim/tools/graphite.py:68-88` -/
def gphBridges (nodes : List GphNode) : List GphLink → List (String × GphItem) → Option (List (String × GphItem))
  | [], r => some r
  | l :: ls, r =>
    if gphNeedsBridge l then
      match gphBridgeItem nodes l with
      | none => none
      | some i => gphBridges nodes ls (gphSet r (gphBridgeName l) i)
    else gphBridges nodes ls r

/-- `netsim/tools/graphite.py:41-90` (`nodes_items`) -/
def gphNodes (nodes : List GphNode) (links : List GphLink) : Option (List (String × GphItem)) :=
  gphBridges nodes links (nodes.foldl (fun r n => gphSet r n.name (gphNodeItem n)) [])

/-- An end of a line in the graph (`netsim/tools/graphite.py:104-108`) -/
structure GphEnd where
  node : String
  intf : String
  deriving DecidableEq

/-- `netsim/tools/graphite.py:104-107` -/
def gphEnd (i : GphIntf) : GphEnd := ⟨i.node, shortIfname i.ifname⟩

/-- The lines of a link (`netsim/tools/graphite.py:101-133`); `none` when the second interface does not exist. -/
def gphLines (l : GphLink) : Option (List (GphEnd × GphEnd)) :=
  if l.type == "p2p" || (l.type == "lan" && l.count == 2) then
    match l.intfs with
    | a :: b :: _ => some [(gphEnd a, gphEnd b)]
    | _ => none
  else if l.type == "lan" || l.type == "stub" then
    some (l.intfs.map fun i => (gphEnd i, ⟨gphBridgeName l, ""⟩))
  else some []

/-- `netsim/tools/graphite.py:98-134` (`links_items`) -/
def gphLinks : List GphLink → Option (List (GphEnd × GphEnd))
  | [] => some []
  | l :: r =>
    match gphLines l with
    | none => none
    | some x =>
      match gphLinks r with
      | none => none
      | some y => some (x ++ y)

end Netlab
