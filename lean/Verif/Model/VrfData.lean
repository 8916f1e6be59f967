import Verif.Model.Box
/-!
# VRFs used on interfaces (`netsim/modules/vrf.py`, `node_post_link_transform`)

The values of VRFs are dictionaries.
-/

namespace Netlab

/-- `netsim/modules/vrf.py:470-471`: the VRF has a definition that is not empty. -/
def vrfKnown (globals : List (String × List (String × Val))) (vrfs : List (String × List (String × Val))) (v : String) : Bool :=
  !((globals.lookup v).getD []).isEmpty || !((vrfs.lookup v).getD []).isEmpty

/-- One interface (`netsim/modules/vrf.py:466-479`): VRFs of the node and the VRFs that were reported.  A missing dictionary of VRFs is
created when it is used for the first time, and is not used when it is empty (line 481), so it is the same as an empty one. -/
def vrfOnIntf (globals : List (String × List (String × Val))) (s : List (String × List (String × Val)) × List String)
    (vrf : Option String) : List (String × List (String × Val)) × List String :=
  match vrf with
  | none => s
  | some v =>
    if !vrfKnown globals s.1 v then (s.1, s.2 ++ [v])
    else if s.1.any (fun p => p.1 == v) then s
    else (setKey s.1 v [], s.2)

/-- `netsim/modules/vrf.py:484-486` -/
def mergeGlobalVrf (globals : List (String × List (String × Val))) (p : String × List (String × Val)) : String × List (String × Val) :=
  match globals.lookup p.1 with
  | some g => (p.1, mergeDict g p.2)
  | none => p

/-- `netsim/modules/vrf.py:465-486` (`node_post_link_transform`): `intfs` are the VRFs of interfaces. -/
def vrfPostLink (globals vrfs : List (String × List (String × Val))) (intfs : List (Option String)) :
    List (String × List (String × Val)) × List String :=
  let r := intfs.foldl (vrfOnIntf globals) (vrfs, [])
  (r.1.map (mergeGlobalVrf globals), r.2)

end Netlab
