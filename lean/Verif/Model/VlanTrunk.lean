import Verif.Model.Svi
/-!
# VLAN trunks and subinterfaces

VLAN IDs on trunk interfaces, VLAN subinterfaces and checks of mixed trunks on a single node (`netsim/modules/vlan.py`).

Simplifications:

* the changes of neighbor lists are not modelled here;
* VLANs on the node have VLAN IDs (they were assigned before this process), a missing ID is 0;
* the template used for subinterface names is a function of the name of the parent interface, subinterface number and VLAN ID.
-/

namespace Netlab

/-- `features.vlan.model`: `netsim/devices/*.yml`.  (The code tests whether the model contains `switch` or `router`.) -/
inductive VModel
  | router
  | l3switch
  | switch
deriving DecidableEq, Repr

/-- VLAN features of a device: `netsim/modules/vlan.py:1001-1035`, `1085-1160`. -/
structure VlanFeat where
  model : VModel
  /-- `subif_name`: parent interface name, subinterface number, VLAN ID -/
  subName : String → Nat → Option Nat → String
  /-- `first_subif_id` -/
  first : Option Nat := none
  /-- `mixed_trunk` -/
  mixed : Bool := false
  /-- `native_routed` -/
  native : Bool := false

/-- Reasons for aborting the process: `netsim/modules/vlan.py:952`, `1037`, `1124`; `netsim/modules/vlan.py:968` (no such
element in the list). -/
inductive VtAbort
  | unknownVlan
  | noParent
deriving DecidableEq, Repr

/-- VLAN IDs on a trunk interface: `map_trunk_vlans`, `netsim/modules/vlan.py:943-957`. -/
def mapTrunk (vlans : List (String × NVlan)) (i : SvIf) : Except VtAbort SvIf :=
  if i.trunk.getD [] = [] then .ok i
  else if (i.trunk.getD []).all (fun v => (vlans.lookup v).isSome) then
    .ok { i with trunkId := some ((i.trunk.getD []).map (fun v => ((vlans.lookup v).bind (·.id)).getD 0)) }
  else .error .unknownVlan

/-- The loop in `map_trunk_vlans`, `netsim/modules/vlan.py:943-957`. -/
def mapTrunks (vlans : List (String × NVlan)) : List SvIf → Except VtAbort (List SvIf)
  | [] => .ok []
  | i :: rest =>
    match mapTrunk vlans i with
    | .error a => .error a
    | .ok j =>
      match mapTrunks vlans rest with
      | .error a => .error a
      | .ok l => .ok (j :: l)

/-- `find_parent_interface`, `netsim/modules/vlan.py:962-972`: the position of the parent interface. -/
def parentPos (ifs : List SvIf) (i : SvIf) : Option Nat :=
  let c := (List.range ifs.length).filter (fun j => (ifs[j]?.bind (·.linkindex)) == i.parentindex)
  c[if c.length = 1 then 0 else i.selfloop]?

/-- `remove_vlan_from_trunk`, `netsim/modules/vlan.py:990-996`. -/
def removeVlan (i : SvIf) (id : Nat) : SvIf :=
  if (i.trunkId.getD []).filter (fun v => v ≠ id) = [] then { i with
    trunkId := none
    trunk := none }
  else { i with trunkId := some ((i.trunkId.getD []).filter (fun v => v ≠ id)) }

/-- The next subinterface number: `netsim/modules/vlan.py:1040-1043`. -/
def nextSub (f : VlanFeat) (par : SvIf) : Nat :=
  match par.subifIndex with
  | some n => n + 1
  | none => if f.first.getD 0 = 0 then 1 else f.first.getD 0

/-- The changes of the parent interface: `netsim/modules/vlan.py:1040-1043`, `1065-1066`. -/
def addSub (f : VlanFeat) (par : SvIf) (id : Option Nat) : SvIf :=
  let p := { par with subifIndex := some (nextSub f par) }
  match id with
  | none => p
  | some v => if (p.trunkId.getD []).contains v then removeVlan p v else p

/-- The subinterface: `netsim/modules/vlan.py:1045-1063`; `par` is the parent interface after its subinterface number was
changed. -/
def mkSub (f : VlanFeat) (par i : SvIf) : SvIf :=
  { i with
    ifname := f.subName par.ifname (par.subifIndex.getD 0) i.accessId
    parentIfindex := some par.ifindex
    isVirtual := true
    linkindex := none
    parentindex := none
    selfloop := 0 }

/-- One interface in `rename_vlan_subinterfaces`, `netsim/modules/vlan.py:1013-1066`; the result is the list of interfaces and the
number of errors. -/
def subStep (f : VlanFeat) (ifs : List SvIf) (k : Nat) : Except VtAbort (List SvIf × Nat) :=
  match ifs[k]? with
  | none => .ok (ifs, 0)
  | some i =>
    if i.kind ≠ "vlan_member" then .ok (ifs, 0)
    else if f.model = .switch then .ok (ifs, 1)
    else if i.parentindex = none then .ok (ifs, 0)
    else
      match (parentPos ifs i).bind (fun j => ifs[j]?.map (fun p => (j, p))) with
      | none => .error .noParent
      | some (j, par) => .ok ((ifs.set j (addSub f par i.accessId)).set k (mkSub f (addSub f par i.accessId) i), 0)

/-- The loop over interfaces: `netsim/modules/vlan.py:1013-1066`. -/
def subLoop (f : VlanFeat) : List Nat → List SvIf → Except VtAbort (List SvIf × Nat)
  | [], ifs => .ok (ifs, 0)
  | k :: rest, ifs =>
    match subStep f ifs k with
    | .error a => .error a
    | .ok (l, e) =>
      match subLoop f rest l with
      | .error a => .error a
      | .ok (l', e') => .ok (l', e + e')

/-- Interfaces left on a switch: `netsim/modules/vlan.py:1007-1009`. -/
def memberFilter (f : VlanFeat) (ifs : List SvIf) : List SvIf :=
  if f.model = .router then ifs
  else ifs.filter (fun i => i.kind ≠ "vlan_member" || i.attrMode == some .route)

/-- There are VLAN loopback interfaces: `netsim/modules/vlan.py:1029-1031`. -/
def hasLoopbacks (f : VlanFeat) (ifs : List SvIf) : Bool :=
  f.model ≠ .switch && ifs.any (fun i => i.kind = "vlan_member" && i.parentindex.isNone)

/-- `rename_vlan_subinterfaces`, `netsim/modules/vlan.py:1001-1069`. -/
def renameSubs (f : VlanFeat) (ifs : List SvIf) : Except VtAbort (List SvIf × Nat) :=
  match subLoop f (List.range (memberFilter f ifs).length) (memberFilter f ifs) with
  | .error a => .error a
  | .ok (l, e) =>
    .ok (if hasLoopbacks f (memberFilter f ifs) then l.filter (fun i => !i.loopback) else l, e)

/-- One interface in `cleanup_routed_native_vlan`, `netsim/modules/vlan.py:1085-1103`: the interface and the number of errors. -/
def cleanNative (f : VlanFeat) (vlans : List (String × NVlan)) (i : SvIf) : SvIf × Nat :=
  match i.nativeFlag with
  | none => (i, 0)
  | some v =>
    if i.mode ≠ some .route then (i, 0)
    else
      (match (vlans.lookup v).bind (·.id) with
        | none => i
        | some id => if id = 0 then i else removeVlan i id,
       if f.native then 0 else 1)

/-- A problem found in `check_mixed_trunks`, `netsim/modules/vlan.py:1118-1129`: the index of the parent interface. -/
def mixedParent (ifs : List SvIf) (i : SvIf) : Except VtAbort (Option Int) :=
  if i.kind ≠ "vlan_member" then .ok none
  else
    match i.parentIfindex with
    | none => .ok none
    | some x =>
      match ifs.find? (fun p => p.ifindex = x) with
      | none => .error .noParent
      | some p => .ok (if p.trunkId.isSome then some p.ifindex else none)

/-- The loop in `check_mixed_trunks`, `netsim/modules/vlan.py:1116-1137`. -/
def mixedLoop (ifs : List SvIf) : List SvIf → Except VtAbort (List Int)
  | [] => .ok []
  | i :: rest =>
    match mixedParent ifs i with
    | .error a => .error a
    | .ok r =>
      match mixedLoop ifs rest with
      | .error a => .error a
      | .ok l => .ok (r.toList ++ l)

/-- `check_mixed_trunks`, `netsim/modules/vlan.py:1111-1137`: number of errors. -/
def mixedErrors (f : VlanFeat) (ifs : List SvIf) : Except VtAbort Nat :=
  if f.mixed then .ok 0
  else
    match mixedLoop ifs ifs with
    | .error a => .error a
    | .ok l => .ok l.eraseDups.length

/-- `check_mixed_native_trunk`, `netsim/modules/vlan.py:1144-1163`: number of errors. -/
def nativeTrunkErrors (f : VlanFeat) (ifs : List SvIf) : Nat :=
  if f.model = .router then 0
  else (ifs.filter (fun i => !i.isVirtual && (i.ip4.isSome || i.ip6.isSome) && i.trunkId.getD [] ≠ [])).length

/-- Trunks and subinterfaces of a node, after VLAN interfaces were created: `netsim/modules/vlan.py:1410-1414`. -/
def trunkNode (f : VlanFeat) (vlans : List (String × NVlan)) (ifs : List SvIf) : Except VtAbort (List SvIf × Nat) :=
  match mapTrunks vlans ifs with
  | .error a => .error a
  | .ok l1 =>
    match renameSubs f l1 with
    | .error a => .error a
    | .ok (l2, e2) =>
      let l3 := l2.map (fun i => (cleanNative f vlans i).1)
      match mixedErrors f l3 with
      | .error a => .error a
      | .ok e4 => .ok (l3, e2 + (l2.map (fun i => (cleanNative f vlans i).2)).sum + e4 + nativeTrunkErrors f l3)

end Netlab
