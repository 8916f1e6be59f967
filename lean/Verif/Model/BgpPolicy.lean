import Verif.Model.Box
/-!
# BGP policies of EBGP neighbors (`netsim/extra/bgp.policy/plugin.py`)

Sessions that have to be cleared (`_session_clear`), the `extended` community added for outgoing bandwidth and the texts of
errors are left out.
-/

namespace Netlab

/-- A pair of optional values for the directions `in` and `out` (`netsim/extra/bgp.policy/plugin.py:80-82`) -/
structure InOut (β : Type) where
  inp : Option β := none
  out : Option β := none
  deriving Repr, DecidableEq

/-- `x[direction]` (`netsim/extra/bgp.policy/plugin.py:87`); `true` is the direction `in` -/
def InOut.get {β : Type} (x : InOut β) : Bool → Option β
  | true => x.inp
  | false => x.out

/-- `x[direction] = v` (`netsim/extra/bgp.policy/plugin.py:88`) -/
def InOut.set {β : Type} (x : InOut β) (d : Bool) (v : β) : InOut β :=
  match d with
  | true => { x with inp := some v }
  | false => { x with out := some v }

/-- Value of a BGP policy attribute (`netsim/extra/bgp.policy/defaults.yml:40-59`): a value that is false in Python (zero, empty
string), a dictionary with the keys `in` and `out`, or any other value -/
inductive BpVal where
  | zero
  | val (s : String)
  | bidir (x : InOut String)
  deriving Repr, DecidableEq

/-- Is the value true in Python (`netsim/extra/bgp.policy/plugin.py:172`)? -/
def BpVal.truthy : BpVal → Bool
  | .zero => false
  | .val _ => true
  | .bidir x => x.inp.isSome || x.out.isSome

/-- The direction of a compound attribute (`bgp.attributes.p_attr.compound`, `netsim/extra/bgp.policy/defaults.yml:47-51`) -/
inductive BpDir where
  | one (d : Bool)
  | both
  deriving Repr, DecidableEq

/-- An interface with BGP attributes (`netsim/utils/routing.py:56-67`, `netsim/extra/bgp.policy/plugin.py:171`) and routing policies
(`netsim/extra/bgp.policy/plugin.py:247`) -/
structure BpIntf where
  ifindex : Nat
  vrf : Option String := none
  attrs : List (String × BpVal) := []
  policy : InOut String := {}
  deriving Repr, DecidableEq

/-- A BGP neighbor (`netsim/utils/routing.py:56-67`) -/
structure BpNgb where
  name : String
  type : String := "ebgp"
  vrf : Option String := none
  ifindex : Option Nat := none
  attrs : List (String × BpVal) := []
  policy : InOut String := {}
  deriving Repr, DecidableEq

/-- Settings of a node and its device (`netsim/extra/bgp.policy/plugin.py:276-311`): attributes applied directly, compound
attributes with directions, support for attributes (`check_device_attribute_support`), values accepted by the device
(`check_attribute_direction`), usable routing policies (`import_routing_policy` and `check_routing_policy`), the node-level
`locpref` attribute and the `_default_locpref` feature -/
structure BpPar where
  direct : List String
  compound : List (String × BpDir)
  supp : String → Bool
  dirOk : String → BpVal → Bool
  polOk : String → Bool
  locpref : Option BpVal
  defaultLocpref : Bool

/-- What changes while neighbors are processed: routing policies of the node (a policy is reduced to the `set` dictionary of
its entry), is the `routing` module active, the counter used in names of policies (`netsim/extra/bgp.policy/plugin.py:285`), is
the configuration template needed, number of errors -/
structure BpState where
  pols : List (String × List (String × BpVal))
  routing : Bool := true
  idx : Nat := 0
  config : Bool := false
  errors : Nat := 0
  deriving Repr, DecidableEq

/-- `_attr_list` (`netsim/extra/bgp.policy/plugin.py:278`) -/
def BpPar.attrList (p : BpPar) : List String := p.direct ++ p.compound.map (·.1)

/-- `netsim/extra/bgp.policy/plugin.py:194-200` (`fix_bgp_bandwidth`), called only for a value that is true
(`netsim/extra/bgp.policy/plugin.py:300-301`) -/
def fixBandwidth (attrs : List (String × BpVal)) : List (String × BpVal) :=
  match attrs.lookup "bandwidth" with
  | some (.val s) => setKey attrs "bandwidth" (.bidir { inp := some s })
  | _ => attrs

/-- `netsim/extra/bgp.policy/plugin.py:291-292` and `netsim/extra/bgp.policy/plugin.py:307-308`: node-level `locpref` is copied to the
interface. -/
def copyLocpref (p : BpPar) (attrs : List (String × BpVal)) : List (String × BpVal) :=
  match (if p.defaultLocpref then none else p.locpref) with
  | some v => if ((attrs.lookup "locpref").getD .zero).truthy then attrs else setKey attrs "locpref" v
  | none => attrs

/-- Changes of interface attributes (`netsim/extra/bgp.policy/plugin.py:299-308`) -/
def bpPrep (p : BpPar) (attrs : List (String × BpVal)) : List (String × BpVal) := copyLocpref p (fixBandwidth attrs)

/-- The value of a compound attribute in a direction (`netsim/extra/bgp.policy/plugin.py:79-83`) -/
def dirVal (c : BpDir) (v : BpVal) (d : Bool) : Option BpVal :=
  match c, v with
  | .one e, v => if d = e then some v else none
  | .both, .bidir x => (x.get d).map .val
  | .both, _ => none

/-- `netsim/extra/bgp.policy/plugin.py:78-93` (`append_policy_attribute`): `pol` is the value of `_policy`, reduced to `set`
dictionaries of first entries. -/
def appendPol (pol : InOut (List (String × BpVal))) (a : String) (c : BpDir) (v : BpVal) : InOut (List (String × BpVal)) :=
  [true, false].foldl
    (fun pol d => match dirVal c v d with
      | some w => pol.set d (setKey ((pol.get d).getD []) a w)
      | none => pol)
    pol

/-- What changes in `apply_policy_attributes`: the neighbor, its `_policy`, were any attributes found, number of errors
(`netsim/extra/bgp.policy/plugin.py:166-188`) -/
structure BpApply where
  ngb : BpNgb
  pol : InOut (List (String × BpVal)) := {}
  found : Bool := false
  errors : Nat := 0

/-- The body of the loop in `netsim/extra/bgp.policy/plugin.py:170-186` -/
def applyPolAttr (p : BpPar) (attrs : List (String × BpVal)) (st : BpApply) (a : String) : BpApply :=
  match attrs.lookup a with
  | none => st
  | some v =>
    if !v.truthy then st
    else if !p.supp a then { st with errors := st.errors + 1 }
    else
      let st := { st with found := true, ngb := { st.ngb with attrs := setKey st.ngb.attrs a v } }
      match p.compound.lookup a with
      | none => st
      | some c => { st with pol := appendPol st.pol a c v, errors := st.errors + if p.dirOk a v then 0 else 1 }

/-- `netsim/extra/bgp.policy/plugin.py:166-188` (`apply_policy_attributes`) -/
def applyPolAttrs (p : BpPar) (attrs : List (String × BpVal)) (g : BpNgb) : BpApply :=
  p.attrList.foldl (applyPolAttr p attrs) { ngb := g }

/-- Name of a route map (`netsim/extra/bgp.policy/plugin.py:205-207` and `netsim/extra/bgp.policy/plugin.py:236`) -/
def bpName (vrf : Option String) (ngb : String) (idx : Nat) (d : Bool) : String :=
  "bp-" ++ (match vrf with | some v => "vrf-" ++ v ++ "-" | none => "") ++ ngb ++ "-" ++ toString idx ++ "-" ++ (if d then "in" else "out")

/-- `netsim/extra/bgp.policy/plugin.py:246-265` (`apply_bgp_routing_policy`) for one direction: result are the neighbor, is the
configuration template needed, number of errors.  A policy that cannot be used is an error reported by the routing module. -/
def routingPolDir (p : BpPar) (pol : InOut String) (r : BpNgb × Bool × Nat) (d : Bool) : BpNgb × Bool × Nat :=
  match pol.get d with
  | none => r
  | some n => if p.polOk n then ({ r.1 with policy := r.1.policy.set d n }, true, r.2.2) else (r.1, r.2.1, r.2.2 + 1)

/-- `netsim/extra/bgp.policy/plugin.py:245-265` (`apply_bgp_routing_policy`) -/
def routingPol (p : BpPar) (routing : Bool) (pol : InOut String) (g : BpNgb) : BpNgb × Bool × Nat :=
  if pol.inp.isNone && pol.out.isNone then (g, false, 0)
  else if !routing then (g, false, 1)
  else [true, false].foldl (routingPolDir p pol) (g, false, 0)

/-- `netsim/extra/bgp.policy/plugin.py:213-238` (`create_routing_policy`), one direction -/
def createPolDir (vrf : Option String) (idx : Nat) (pol : InOut (List (String × BpVal))) (r : BpNgb × BpState) (d : Bool) :
    BpNgb × BpState :=
  match pol.get d with
  | none => r
  | some s =>
    if (r.1.policy.get d).isSome then (r.1, { r.2 with errors := r.2.errors + 1 })
    else
      let name := bpName vrf r.1.name idx d
      ({ r.1 with policy := r.1.policy.set d name }, { r.2 with routing := true, pols := setKey r.2.pols name s })

/-- `netsim/extra/bgp.policy/plugin.py:212-240` (`create_routing_policy`) -/
def createPol (vrf : Option String) (idx : Nat) (pol : InOut (List (String × BpVal))) (g : BpNgb) (st : BpState) : BpNgb × BpState :=
  [true, false].foldl (createPolDir vrf idx pol) (g, st)

/-- The body of the loop in `netsim/extra/bgp.policy/plugin.py:297-313`; `attrs` are the attributes of the interface after
`bpPrep`. -/
def bpNgb (p : BpPar) (i : BpIntf) (attrs : List (String × BpVal)) (st : BpState) (g : BpNgb) : BpNgb × BpState :=
  let idx := st.idx + 1
  let r := routingPol p st.routing i.policy g
  let a := applyPolAttrs p attrs r.1
  let st := { st with idx := idx, config := st.config || r.2.1 || a.found, errors := st.errors + r.2.2 + a.errors }
  if a.found then createPol i.vrf idx a.pol a.ngb st else (a.ngb, st)

/-- Is it an EBGP neighbor on the interface (`netsim/utils/routing.py:56-67`)? -/
def bpMatch (i : BpIntf) (g : BpNgb) : Bool := g.type == "ebgp" && g.vrf == i.vrf && g.ifindex == some i.ifindex

/-- The loop over neighbors on an interface (`netsim/utils/routing.py:61-67`): the attributes of the interface are changed for
every neighbor. -/
def bpNgbs (p : BpPar) (i : BpIntf) : List (String × BpVal) → BpState → List BpNgb → List BpNgb × BpState
  | _, st, [] => ([], st)
  | attrs, st, g :: r =>
    if bpMatch i g then
      let x := bpNgb p i (bpPrep p attrs) st g
      let y := bpNgbs p i (bpPrep p attrs) x.2 r
      (x.1 :: y.1, y.2)
    else
      let y := bpNgbs p i attrs st r
      (g :: y.1, y.2)

/-- The loop in `netsim/extra/bgp.policy/plugin.py:297-313` -/
def bpIntfs (p : BpPar) : List BpIntf → BpState → List BpNgb → List BpNgb × BpState
  | [], st, gs => (gs, st)
  | i :: r, st, gs =>
    let x := bpNgbs p i i.attrs st gs
    bpIntfs p r x.2 x.1

/-- `netsim/utils/routing.py:122-125` (`cleanup_neighbor_attributes`) called in `netsim/extra/bgp.policy/plugin.py:284` -/
def bpCleanup (p : BpPar) (g : BpNgb) : BpNgb :=
  if g.type == "ibgp" || g.type == "ebgp" then
    { g with attrs := g.attrs.filter (fun x => !p.attrList.contains x.1), policy := {} }
  else g

/-- `netsim/extra/bgp.policy/plugin.py:274-313` (`post_transform`) for a node that uses BGP -/
def bpNode (p : BpPar) (routing : Bool) (pols : List (String × List (String × BpVal))) (intfs : List BpIntf) (ngbs : List BpNgb) :
    List BpNgb × BpState :=
  bpIntfs p intfs { pols := pols, routing := routing } (ngbs.map (bpCleanup p))

end Netlab
