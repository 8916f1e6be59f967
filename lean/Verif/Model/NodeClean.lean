/-!
# Final cleanup of nodes (`netsim/augment/nodes.py:516-624`)

MTU values are integers.  The order of configuration templates (`netsim/augment/nodes.py:618-621`) is in another part of the model.
-/

namespace Netlab

/-- Device features (`netsim/augment/nodes.py:562-581`): system MTU, minimum physical MTU, minimum and maximum MTU -/
structure NcFeat where
  system : Bool := false
  minPhy : Option Int := none
  minMtu : Option Int := none
  maxMtu : Option Int := none
  deriving Repr, DecidableEq

/-- An interface (`netsim/augment/nodes.py:535-547`, `netsim/augment/nodes.py:583-605`): name, MTU, does it use IPv6, the flag set for small MTU
values, other attributes -/
structure NcIntf (α : Type) where
  ifname : String
  mtu : Option Int
  ipv6 : Bool
  ipMtu : Bool
  rest : α
  deriving Repr, DecidableEq

/-- A node (`netsim/augment/nodes.py:561-605`): MTU, is IPv6 in its address families, interfaces -/
structure NcNode (α : Type) where
  mtu : Option Int
  ipv6 : Bool
  ifs : List (NcIntf α)
  deriving Repr, DecidableEq

/-- `netsim/augment/nodes.py:535-547` (`check_unique_ifnames`): number of errors; `seen` are the names of previous interfaces. -/
def ncNames (seen : List String) : List String → Nat
  | [] => 0
  | x :: r => if seen.contains x then 1 + ncNames seen r else ncNames (seen ++ [x]) r

/-- `'min_mtu' in features and mtu < features.min_mtu` (`netsim/augment/nodes.py:565-573`, `netsim/augment/nodes.py:594`) -/
def ncBelow (m : Int) : Option Int → Bool
  | none => false
  | some x => decide (m < x)

/-- `'max_mtu' in features and mtu > features.max_mtu` (`netsim/augment/nodes.py:578`, `netsim/augment/nodes.py:589`) -/
def ncAbove (m : Int) : Option Int → Bool
  | none => false
  | some x => decide (m > x)

/-- The system MTU is used (`netsim/augment/nodes.py:563`): its value -/
def ncSystem (f : NcFeat) (n : NcNode α) : Option Int := if f.system then n.mtu else none

/-- Checks of the system MTU (`netsim/augment/nodes.py:564-581`): number of errors -/
def ncNodeErr (f : NcFeat) (ipv6 : Bool) (m : Int) : Nat :=
  (if ncBelow m f.minPhy then 1
   else if ncBelow m f.minMtu then 1
   else if ipv6 && decide (m < 1280) then 1 else 0) +
  (if ncAbove m f.maxMtu then 1 else 0)

/-- The loop body in `netsim/augment/nodes.py:583-605`: the interface and the number of errors -/
def ncIntf (f : NcFeat) (sys : Option Int) (i : NcIntf α) : NcIntf α × Nat :=
  match i.mtu with
  | none => (i, 0)
  | some m =>
    if sys = some m then ({ i with mtu := none }, 0)
    else
      ((if ncBelow m f.minPhy then { i with ipMtu := true } else i),
       (if ncAbove m f.maxMtu then 1 else 0) +
       (if ncBelow m f.minMtu then 1 else if i.ipv6 && decide (m < 1280) then 1 else 0))

/-- Checks of the system MTU, if it is used (`netsim/augment/nodes.py:563-581`) -/
def ncSysErr (f : NcFeat) (ipv6 : Bool) : Option Int → Nat
  | none => 0
  | some m => ncNodeErr f ipv6 m

/-- `netsim/augment/nodes.py:561-605` (`cleanup_mtu`): the node and the number of errors -/
def ncMtu (f : NcFeat) (n : NcNode α) : NcNode α × Nat :=
  let sys := ncSystem f n
  let r := n.ifs.map (ncIntf f sys)
  ({ n with ifs := r.map (·.1) }, ncSysErr f n.ipv6 sys + (r.map (·.2)).sum)

/-- `netsim/augment/nodes.py:610-615` (`cleanup`): interface names and MTU -/
def ncClean (f : NcFeat) (n : NcNode α) : NcNode α × Nat :=
  let r := ncMtu f n
  (r.1, ncNames [] (n.ifs.map (·.ifname)) + r.2)

/-- `k.replace('@','.')` (`netsim/augment/nodes.py:525`) -/
def ncDot (k : String) : String := String.ofList (k.toList.map (fun c => if c = '@' then '.' else c))

/-- `netsim/augment/nodes.py:520-530` (`cleanup_daemon_config`) -/
def ncDaemon (device : String) (modules config : List String) (d : List (String × α)) : List (String × α) :=
  d.filter (fun p => (p.1.toList.head? == some '_') || ncDot p.1 == device || modules.contains (ncDot p.1) || config.contains (ncDot p.1))

end Netlab
