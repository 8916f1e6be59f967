import Verif.Model.Links
import Verif.Model.LinkType
import Verif.Model.Confirm
/-!
# Warnings about LAG links using Linux bridges

`check_bridge_links` (`netsim/modules/lag.py`) with the functions selecting types and bridge names of links:
`pre_transform` in the libvirt provider (`netsim/providers/libvirt.py`), `set_link_type_role` and `set_link_bridge_name`
(`netsim/augment/links.py`).

Simplifications: attributes of links that are not used are a value of an arbitrary type; uplinks of links and the check of
link types are not modelled; every node on a link exists.
-/

namespace Netlab

/-- A node: its name, its `provider` attribute (`netsim/providers/__init__.py:242-246`) and attributes used to select link
types (`netsim/augment/links.py:920-927`). -/
structure LwNode where
  provider : Option String
  lt : LtNode

/-- A link, `netsim/modules/lag.py:369-376`: `linkindex`, is it a temporary (virtual) LAG link, `type`, `bridge`, does it have a
DHCP subnet, nodes on the link and other attributes. -/
structure LbLink (β : Type) where
  idx : Nat
  virtual : Bool
  type : Option String
  bridge : Option String
  dhcp : Bool
  nodes : List (String × LwNode)
  rest : β

/-- Settings: lab name, is libvirt the primary provider, `providers.libvirt.p2p_bridge`, `links.stub_loopback`
(`netsim/providers/libvirt.py:282-293`, `netsim/augment/links.py:905`). -/
structure LbEnv where
  name : String
  libvirt : Bool
  p2pBridge : Bool
  stubLoopback : Bool

/-- The link has the `libvirt.provider` attribute: `netsim/providers/__init__.py:239-248`. -/
def lbMixed (l : LbLink β) : Bool := l.nodes.any (fun n => n.2.provider.isSome)

/-- `must_be_lan`, `netsim/providers/libvirt.py:288-289`. -/
def lbMustBeLan (e : LbEnv) (l : LbLink β) : Bool :=
  (lbMixed l && !textIn "vlan".toList (l.type.getD "").toList) || (e.p2pBridge && l.type.getD "p2p" == "p2p")

/-- `pre_transform` of the primary provider: `netsim/providers/libvirt.py:282-293`. -/
def lbPre (e : LbEnv) (l : LbLink β) : LbLink β :=
  if e.libvirt && lbMustBeLan e l then
    { l with type := some "lan",
             bridge := some (l.bridge.getD (String.ofList (e.name.toList.take 10) ++ "_" ++ toString l.idx)) }
  else l

/-- `set_link_type_role` and `set_link_bridge_name`, `netsim/augment/links.py:949-980, 1222-1226`: the link and the number of
errors. -/
def lbTransform (e : LbEnv) (l : LbLink β) : LbLink β × Nat :=
  let t := ltType e.stubLoopback { type := l.type, role := none, vlan := false, dhcp := l.dhcp, nodes := l.nodes.map (·.2.lt) }
  if ["p2p", "loopback", "vlan_member"].contains t then ({ l with type := some t }, 0)
  else match bridgeName e.name l.idx l.bridge with
    | some b => ({ l with type := some t, bridge := some b }, 0)
    | none => ({ l with type := some t }, 1)

/-- Insertion of a name into a sorted list, used in `lbSort` (`netsim/modules/lag.py:376`). -/
def lbInsert (x : String) : List String → List String
  | [] => [x]
  | y :: r => if x ≤ y then x :: y :: r else y :: lbInsert x r

/-- `sorted` for a list of names, `netsim/modules/lag.py:376`. -/
def lbSort (l : List String) : List String := l.foldr lbInsert []

/-- `" and ".join`, `netsim/modules/lag.py:377`. -/
def lbJoin : List String → String
  | [] => ""
  | [x] => x
  | x :: r => x ++ " and " ++ lbJoin r

/-- `n_text`, `netsim/modules/lag.py:376-377`. -/
def lbText (l : LbLink β) : String := lbJoin (lbSort (l.nodes.map (·.1)))

/-- `check_bridge_links`, `netsim/modules/lag.py:367-387`: nodes in warnings.  `seen` are the keys in `err_cache`. -/
def lbWarn (seen : List String) : List (LbLink β) → List String
  | [] => []
  | l :: rest =>
    if !l.virtual then lbWarn seen rest
    else match l.bridge with
      | none => lbWarn seen rest
      | some _ => if seen.contains (lbText l) then lbWarn seen rest else lbText l :: lbWarn (lbText l :: seen) rest

/-- `module_post_transform`, `netsim/modules/lag.py:433-437`: warnings and links. -/
def lagPost (links : List (LbLink β)) : List String × List (LbLink β) := (lbWarn [] links, links.filter (fun l => !l.virtual))

/-- Transformation of links: `netsim/augment/main.py:67-91`.  Warnings, links and the number of errors. -/
def lagLab (e : LbEnv) (links : List (LbLink β)) : List String × List (LbLink β) × Nat :=
  let r := links.map (fun l => lbTransform e (lbPre e l))
  ((lagPost (r.map (·.1))).1, (lagPost (r.map (·.1))).2, (r.map (·.2)).sum)

end Netlab
