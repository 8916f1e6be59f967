import Verif.Model.Box
/-!
# Vagrant with libvirt (`netsim/providers/libvirt.py:200-261`, `netsim/providers/libvirt.py:303-366`)
-/

namespace Netlab

/-- A physical interface: `ifindex` and a padding flag; other attributes are values of an arbitrary type (`netsim/providers/libvirt.py:200-231`). -/
structure VgPort (α : Type) where
  ifindex : Nat
  data : Option α
  deriving Repr, DecidableEq

/-- Insertion into a list sorted by `ifindex` (`netsim/providers/libvirt.py:203`) -/
def vgInsert (i : VgPort α) : List (VgPort α) → List (VgPort α)
  | [] => [i]
  | x :: r => if i.ifindex ≤ x.ifindex then i :: x :: r else x :: vgInsert i r

/-- `phy_iflist.sort(key=lambda intf: intf.ifindex)` (`netsim/providers/libvirt.py:203`), a stable sort -/
def vgSort (l : List (VgPort α)) : List (VgPort α) := l.foldr vgInsert []

/-- The `while` loop in `netsim/providers/libvirt.py:210-227` starting with this index: a padding interface has no data. -/
def vgPad (k : Nat) : List (VgPort α) → List (VgPort α)
  | [] => []
  | i :: r => if i.ifindex > k then ⟨k, none⟩ :: vgPad (k + 1) (i :: r) else i :: vgPad (k + 1) r
  termination_by l => (l.length, (l.head?.elim 0 (·.ifindex)) - k)
  decreasing_by
    · right
      simp only [List.head?_cons, Option.elim_some]
      omega
    · left
      simp

/-- `netsim/providers/libvirt.py:200-231` (`pad_node_interfaces`): physical interfaces and the adapter count -/
def vgPadNode (offset : Nat) (count : Option Nat) (l : List (VgPort α)) : List (VgPort α) × Nat :=
  (vgPad offset (vgSort l), count.getD ((vgPad offset (vgSort l)).length + 1))

/-- The `while` loop in `netsim/providers/libvirt.py:254-261`: the commands; the batch size is at least one. -/
def vgBatches (start : String) (sleep : Option String) (size : Nat) (nodes : List String) : List String :=
  if nodes.length ≤ size ∨ size = 0 then [start ++ " " ++ " ".intercalate (nodes.take size)]
  else (start ++ " " ++ " ".intercalate (nodes.take size)) :: sleep.toList ++ vgBatches start sleep size (nodes.drop size)
  termination_by nodes.length
  decreasing_by
    simp only [List.length_drop]
    omega

/-- A link (`netsim/providers/libvirt.py:324-361`): index, type, providers, interfaces (node and `ifindex`), bridge name, libvirt attributes -/
structure VgLink where
  index : Nat
  type : String
  providers : List String
  ifs : List (String × Nat)
  bridge : Option String
  libvirt : Option (List (String × Val))

/-- An interface of a node (`netsim/providers/libvirt.py:319-361`) -/
structure VgIntf where
  linkindex : Nat
  virt : Bool
  ifindex : Nat
  bridge : Option String
  libvirt : List (String × Val)
  remoteIfindex : Option Nat
  remoteId : Option Nat

/-- Remove the bridge name from a link (`netsim/providers/libvirt.py:347`) -/
def vgPop (k : Nat) (links : List VgLink) : List VgLink :=
  match links with
  | [] => []
  | l :: r => if l.index = k then { l with bridge := none } :: r else l :: vgPop k r

/-- Attributes of the interface set in `netsim/providers/libvirt.py:341-342` -/
def vgTunnel (l : VgLink) (i : VgIntf) : VgIntf :=
  if l.ifs.length = 2 ∧ l.type = "p2p" then { i with libvirt := setKey i.libvirt "type" (.str "tunnel") } else i

/-- Is the interface a tunnel (`netsim/providers/libvirt.py:344`)? -/
def vgIsTunnel (i : VgIntf) : Bool :=
  match i.libvirt.lookup "type" with
  | some (.str s) => s == "tunnel"
  | _ => false

/-- The remote interface in `netsim/providers/libvirt.py:349-366`: `none` is a fatal error. -/
def vgRemote (ids : List (String × Nat)) (node : String) (l : VgLink) (i : VgIntf) : Option VgIntf :=
  match l.ifs.filter (fun r => r.1 ≠ node || r.2 ≠ i.ifindex) with
  | [r] =>
    match ids.lookup r.1 with
    | none => none
    | some id => if id = 0 then none else some { i with remoteIfindex := some r.2, remoteId := some id }
  | _ => none

/-- Copy the bridge name (`netsim/providers/libvirt.py:330-331`) -/
def vgBridge (l : VgLink) (i : VgIntf) : VgIntf :=
  match l.bridge with
  | none => i
  | some b => { i with bridge := some b }

/-- An interface in `netsim/providers/libvirt.py:319-366`: the new interface and the links; `none` is a fatal error. -/
def vgIntf (ids : List (String × Nat)) (node : String) (links : List VgLink) (i : VgIntf) : Option (VgIntf × List VgLink) :=
  if i.linkindex = 0 then some (i, links)
  else if i.virt then some (i, links)
  else match links.find? (fun l => l.index == i.linkindex) with
    | none => some (i, links)
    | some l =>
      if !l.providers.contains "libvirt" then some (i, links)
      else match l.libvirt with
        | some d => some ({ vgBridge l i with libvirt := mergeDict d i.libvirt }, links)
        | none =>
          if l.providers.length > 1 then some (vgBridge l i, links)
          else if vgIsTunnel (vgTunnel l (vgBridge l i)) then
            (vgRemote ids node l (vgTunnel l (vgBridge l i))).map (fun x => (x, vgPop i.linkindex links))
          else some (vgTunnel l (vgBridge l i), links)

/-- The loop over interfaces of a node (`netsim/providers/libvirt.py:320-366`) -/
def vgIntfs (ids : List (String × Nat)) (node : String) : List VgIntf → List VgLink → Option (List VgIntf × List VgLink)
  | [], links => some ([], links)
  | i :: r, links =>
    match vgIntf ids node links i with
    | none => none
    | some x => (vgIntfs ids node r x.2).map (fun y => (x.1 :: y.1, y.2))

/-- The loop over nodes (`netsim/providers/libvirt.py:319-366`) -/
def vgNodes (ids : List (String × Nat)) : List (String × List VgIntf) → List VgLink → Option (List (String × List VgIntf) × List VgLink)
  | [], links => some ([], links)
  | n :: r, links =>
    match vgIntfs ids n.1 n.2 links with
    | none => none
    | some x => (vgNodes ids r x.2).map (fun y => ((n.1, x.1) :: y.1, y.2))

end Netlab
