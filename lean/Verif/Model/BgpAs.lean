import Verif.Model.Box
/-!
# BGP autonomous systems and EBGP links (`netsim/modules/bgp.py`)
-/

namespace Netlab

/-- An entry of `bgp.as_list` (`netsim/modules/bgp.yml:75-85`) -/
structure AsEntry where
  asn : Int
  members : List String
  rr : List String := []
  deriving Repr, DecidableEq

/-- A node: does it use the BGP module, its AS number and its route reflector flag (`netsim/modules/bgp.py:567-577`) -/
structure AsNode where
  name : String
  bgpModule : Bool := true
  asn : Option Int := none
  rr : Option Bool := none
  deriving Repr, DecidableEq

/-- Node data collected from the list (`netsim/modules/bgp.py:546-565`).  The AS number is missing in the entries
created by reading a missing value. -/
structure AsData where
  asn : Option Int
  rr : Bool := false
  deriving Repr, DecidableEq

/-- `netsim/modules/bgp.py:548-555`: a member of an AS; collected data and number of errors -/
def asMember (asn : Int) (st : List (String × AsData) × Nat) (n : String) : List (String × AsData) × Nat :=
  if (st.1.lookup n).isSome then (st.1, st.2 + 1)
  else (setKey st.1 n ⟨some asn, false⟩, st.2)

/-- `netsim/modules/bgp.py:557-564`: a route reflector of an AS -/
def asRr (asn : Int) (st : List (String × AsData) × Nat) (n : String) : List (String × AsData) × Nat :=
  if (st.1.lookup n).bind (·.asn) = some asn then (setKey st.1 n ⟨some asn, true⟩, st.2)
  else if (st.1.lookup n).isSome then (st.1, st.2 + 1)
  else (setKey st.1 n ⟨none, false⟩, st.2 + 1)

/-- `netsim/modules/bgp.py:547-564`: an entry of the list -/
def asEntry (st : List (String × AsData) × Nat) (e : AsEntry) : List (String × AsData) × Nat :=
  e.rr.foldl (asRr e.asn) (e.members.foldl (asMember e.asn) st)

/-- `netsim/modules/bgp.py:546-564` -/
def asTable (l : List AsEntry) : List (String × AsData) × Nat := l.foldl asEntry ([], 0)

/-- `netsim/modules/bgp.py:566-577` for one node.  AS number zero is false in Python. -/
def asSetNode (d : List (String × AsData)) (n : AsNode) : AsNode × Nat :=
  match d.lookup n.name with
  | none => (n, 0)
  | some x =>
    if n.asn.getD 0 ≠ 0 ∧ n.asn ≠ x.asn then (n, 1)
    else ({ n with asn := if n.asn.isSome then n.asn else x.asn
                   rr := if n.rr.isSome then n.rr else if x.rr then some true else none }, 0)

/-- `netsim/modules/bgp.py:522-577` (`process_as_list`): nodes and number of errors.  Validation of the list is left
out. -/
def processAsList (l : List AsEntry) (nodes : List AsNode) : List AsNode × Nat :=
  let t := asTable l
  let r := nodes.map (asSetNode t.1)
  (r.map (·.1), t.2 + (r.map (·.2)).sum)

/-- `netsim/modules/bgp.py:666-671` and `netsim/modules/bgp.py:20-25` for one node.  Other checks of BGP parameters are
left out. -/
def bgpPre (rrList : List String) (n : AsNode) : AsNode × Nat :=
  if !n.bgpModule then (n, 0)
  else
    let m := if rrList.contains n.name then { n with rr := some true } else n
    (m, if m.asn.isSome then 0 else 1)

/-- AS numbers and route reflectors of all nodes; the data of a node is not changed between
`netsim/modules/bgp.py:522-577` and `netsim/modules/bgp.py:666-671` (group data and defaults are left out). -/
def bgpAsSetup (l : List AsEntry) (rrList : List String) (nodes : List AsNode) : List AsNode × Nat :=
  let p := processAsList l nodes
  let r := p.1.map (bgpPre rrList)
  (r.map (·.1), p.2 + (r.map (·.2)).sum)

/-! ## EBGP roles -/

/-- A link (`netsim/modules/bgp.py:610-639`): role, VLAN name and attached nodes -/
structure RoleLink where
  role : Option String := none
  vlan : Option String := none
  nodes : List String
  deriving Repr, DecidableEq

/-- A VLAN (`netsim/modules/bgp.py:627-649`): role and the collected AS numbers -/
structure RoleVlan where
  role : Option String := none
  asSet : List Int := []
  deriving Repr, DecidableEq

/-- AS numbers of nodes (`netsim/modules/bgp.py:615-619`); zero is false in Python -/
def asNumbers (asOf : String → Option Int) (nodes : List String) : List Int :=
  nodes.filterMap (fun n => if (asOf n).getD 0 = 0 then none else asOf n)

/-- `data.append_to_list` (`netsim/data/__init__.py:37-47`) -/
def addAs (l : List Int) (a : Int) : List Int := if l.contains a then l else l ++ [a]

/-- `netsim/modules/bgp.py:610-622` (`ebgp_role_link`) -/
def ebgpRoleLink (role : String) (asOf : String → Option Int) (l : RoleLink) : RoleLink :=
  if l.role.getD "" ≠ "" then l
  else if ((asNumbers asOf l.nodes).foldl addAs []).length > 1 then { l with role := some role }
  else l

/-- `netsim/modules/bgp.py:627-637` (`vlan_ebgp_role_collect`) -/
def vlanRoleCollect (asOf : String → Option Int) (vlans : List (String × RoleVlan)) (name : String) (l : RoleLink) :
    List (String × RoleVlan) :=
  match vlans.lookup name with
  | none => vlans
  | some v => setKey vlans name { v with asSet := (asNumbers asOf l.nodes).foldl addAs v.asSet }

/-- `netsim/modules/bgp.py:642-649` (`vlan_ebgp_role_set`) -/
def vlanRoleSet (role : String) (v : RoleVlan) : RoleVlan :=
  { role := if v.asSet.length > 1 ∧ v.role.isNone then some role else v.role }

/-- The loop in `netsim/modules/bgp.py:683-687`; VLANs are missing when the topology does not use them. -/
def roleLoop (role : String) (asOf : String → Option Int) :
    List RoleLink → Option (List (String × RoleVlan)) → List RoleLink × Option (List (String × RoleVlan))
  | [], vlans => ([], vlans)
  | l :: ls, vlans =>
    match l.vlan with
    | none =>
      let r := roleLoop role asOf ls vlans
      (ebgpRoleLink role asOf l :: r.1, r.2)
    | some v =>
      let r := roleLoop role asOf ls (vlans.map (fun d => vlanRoleCollect asOf d v l))
      (l :: r.1, r.2)

/-- `netsim/modules/bgp.py:677-690` (`module_pre_link_transform`) -/
def ebgpRoles (role : Option String) (asOf : String → Option Int) (links : List RoleLink)
    (vlans : Option (List (String × RoleVlan))) : List RoleLink × Option (List (String × RoleVlan)) :=
  match role with
  | none => (links, vlans)
  | some r =>
    let s := roleLoop r asOf links vlans
    (s.1, s.2.map (fun d => d.map (fun p => (p.1, vlanRoleSet r p.2))))

end Netlab
