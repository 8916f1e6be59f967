import Verif.Model.Box
import Verif.Model.Ipam
import Verif.Model.NodeId
/-!
# First-hop gateways (`netsim/modules/gateway.py`)

A link is reduced to its `gateway` attribute and the `gateway` attributes of its interfaces.
The attribute is a Boolean or a dictionary (validated in `netsim/augment/main.py:60-61` and
`netsim/augment/main.py:78`); other values are left out.
-/

namespace Netlab

/-- Value of the `gateway` attribute of a link or interface
(`netsim/modules/gateway.yml:27-43`). -/
inductive GwVal where
  | on
  | off
  | data (d : List (String × Val))
  deriving Repr, BEq

/-- An interface of a link: does its node use the `gateway` module
(`netsim/modules/gateway.py:192`), and its `gateway` attribute. -/
structure GwIntf where
  node : String
  uses : Bool
  gw : Option GwVal
  deriving Repr, BEq

/-- First loop of `netsim/modules/gateway.py:169-185` (`link_pre_link_transform`): the result is
the link attribute, the interfaces, the number of warnings and the `copy_to_link` flag. -/
def gwStep1 : Option GwVal → List GwIntf → Option GwVal × List GwIntf × Nat × Bool
  | lg, [] => (lg, [], 0, false)
  | lg, i :: is =>
    match i.gw with
    | none => let r := gwStep1 lg is; (r.1, i :: r.2.1, r.2.2.1, r.2.2.2)
    | some .off => let r := gwStep1 lg is; (r.1, i :: r.2.1, r.2.2.1, r.2.2.2)
    | some _ =>
      match lg with
      | some .off =>
        let r := gwStep1 lg is
        (r.1, { i with gw := none } :: r.2.1, r.2.2.1 + 1, r.2.2.2)
      | some _ => let r := gwStep1 lg is; (r.1, i :: r.2.1, r.2.2.1, r.2.2.2)
      | none => let r := gwStep1 (some .on) is; (r.1, i :: r.2.1, r.2.2.1, true)

/-- Second loop of `netsim/modules/gateway.py:190-199` for one interface. -/
def gwStep2 (i : GwIntf) : GwIntf :=
  if i.uses then
    match i.gw with
    | none => { i with gw := some .off }
    | some .on => { i with gw := none }
    | some _ => i
  else i

/-- `netsim/modules/gateway.py:246-248` for one interface. -/
def gwStep3 (d : List (String × Val)) (i : GwIntf) : GwIntf :=
  match i.gw with
  | some .on => { i with gw := some (.data d) }
  | _ => i

/-- The checks in `netsim/modules/gateway.py:219-241`.  `true` = the identifier and the
protocol are present and the identifier is an integer; then the rest of the function is executed.
`false` = an error was reported and the function returns. -/
def gwCheck (d : List (String × Val)) : Bool :=
  ((d.lookup "id").getD .null).truthy && ((d.lookup "protocol").getD .null).truthy &&
    ((d.lookup "id").getD .null).isTrueInt

/-- `x == n` for an integer `n` (`netsim/modules/gateway.py:236`) -/
def Val.isInt (v : Val) (n : Int) : Bool :=
  match v with
  | .int i => i == n
  | _ => false

/-- `x == s` for a string `s` (`netsim/modules/gateway.py:85`) -/
def Val.isString (v : Val) (s : String) : Bool :=
  match v with
  | .str t => t == s
  | _ => false

/-- Result of `link_pre_link_transform` (`netsim/modules/gateway.py:157`): the link attribute,
the interfaces, number of warnings and errors. -/
structure GwResult where
  gw : Option GwVal
  ifs : List GwIntf
  warnings : Nat
  errors : Nat
  deriving Repr, BEq

/-- The end of `netsim/modules/gateway.py:219-248`: checks and copying. -/
def gwFinish (d : List (String × Val)) (ifs : List GwIntf) (w e : Nat) : GwResult :=
  if gwCheck d then
    ⟨some (.data d), ifs.map (gwStep3 d), w,
      if ((d.lookup "id").getD .null).isInt (-1) then e + 1 else e⟩
  else ⟨some (.data d), ifs, w, e + 1⟩

/-- `netsim/modules/gateway.py:157-248` (`link_pre_link_transform`).  `glob` are the global
settings (`netsim/data/__init__.py:88-111`), `protoErr` is the number of errors reported for the
`protocol` attribute in link settings (`netsim/modules/gateway.py:16-21`). -/
def gwLink (protoErr : List (String × Val) → Nat) (glob : List (String × Val))
    (lg : Option GwVal) (ifs : List GwIntf) : GwResult :=
  let r := gwStep1 lg ifs
  let ifs2 := if r.2.2.2 then r.2.1.map gwStep2 else r.2.1
  let w := r.2.2.1
  match r.1 with
  | none => ⟨none, ifs2, w, 0⟩
  | some g =>
    if glob.isEmpty then ⟨some g, ifs2, w, 0⟩
    else match g with
    | .on => gwFinish glob ifs2 w 0
    | .off => ⟨none, ifs2.map (fun i => { i with gw := none }), w, 0⟩
    | .data d => gwFinish (mergeDict glob d) ifs2 w (protoErr d)

/-- `netsim/modules/gateway.py:95-113` (`process_gw_id`): reserve the identifier; the result is
the node identifier set and the number of errors. -/
def processGwId (v : IdVar) (gw : Option Val) (required : Bool) : IdVar × Nat :=
  match gw with
  | none => (v, if required then 1 else 0)
  | some .null => (v, if required then 1 else 0)
  | some (.int i) => if i < 0 then (v, 0) else ((reserveId v i).getD v, 0)
  | some _ => (v, 1)

/-- `netsim/modules/gateway.py:124-155` (`module_init`): process the global identifier, then the
identifiers of links and VLANs (`none` = not specified; values that are not dictionaries are
skipped). -/
def gwModuleInit (v : IdVar) (glob : Option Val) (other : List (Option Val)) : IdVar × Nat :=
  other.foldl (fun a g => let r := processGwId a.1 g false; (r.1, a.2 + r.2))
    (processGwId v glob true)

/-- The `gateway` attribute of an interface in node data: first loop of
`netsim/modules/gateway.py:250-253` (`node_post_transform`) -/
def gwNodeIntf (g : Option GwVal) : Option GwVal :=
  match g with
  | some .off => none
  | _ => g

/-- One attribute in the loop in `netsim/modules/gateway.py:82-88`
(`cleanup_intf_protocol_parameters`); `none` = the attribute is removed. -/
def gwCleanAttr (protos : List String) (proto : Val) (nodeGw : List (String × Val))
    (p : String × Val) : Option (String × Val) :=
  if protos.contains p.1 then
    if proto.isString p.1 then
      match nodeGw.lookup p.1 with
      | some n => some (p.1, mergeVal n p.2)
      | none => some p
    else none
  else some p

/-- `netsim/modules/gateway.py:70-90` (`cleanup_intf_protocol_parameters`) for one interface -/
def gwCleanIntf (protos : List String) (nodeGw d : List (String × Val)) : List (String × Val) :=
  d.filterMap (gwCleanAttr protos ((d.lookup "protocol").getD .null) nodeGw)

end Netlab
