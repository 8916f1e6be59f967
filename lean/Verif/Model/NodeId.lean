import Verif.Model.IdSet
import Verif.Model.Types
/-!
# Node identifiers (`netsim/augment/nodes.py`)

A node is reduced to its name and its `id` attribute (`none` = no such attribute).
-/

namespace Netlab

/-- A node dictionary entry (`netsim/augment/nodes.py:40-72`, `create_node_dict`): node name
and the `id` attribute; all other attributes are left out. -/
structure NodeRec where
  name : String
  id : Option Val
  deriving Repr, BEq

/-- `netsim/augment/nodes.py:23` -/
def MAX_NODE_ID : Int := 250

/-- `netsim/augment/nodes.py:28-33` (`reserve_id`): `none` = the identifier is in use. -/
def reserveId (v : IdVar) (n : Int) : Option IdVar :=
  if v.isUsed (.i n) then none else some (v.extend [.i n])

/-- The part of `netsim/augment/nodes.py:77-96` (`validate`) that deals with the `id`
attribute: it is an integer between 1 and 150 (`netsim/defaults/attributes.yml:92`).
A string that Python can convert into an integer is replaced with that integer without
a range check.  `none` = an error was reported for some node, and the transformation
stops at the next `log.exit_on_error` (`netsim/augment/main.py:61`). -/
def validateNodeIds (pyInt : String → Option Int) : List NodeRec → Option (List NodeRec)
  | [] => some []
  | n :: ns =>
    match n.id with
    | none => (validateNodeIds pyInt ns).map (n :: ·)
    | some v =>
      match mustBeInt pyInt (some 1) (some 150) v with
      | none => none
      | some v' => (validateNodeIds pyInt ns).map ({ n with id := some v' } :: ·)

/-- First loop of `netsim/augment/nodes.py:416-424` (`transform`): check the range of
static identifiers and reserve them.  The result is the node list (identifiers given as
strings become integers), the identifier set and the "an error was reported" flag. -/
def reserveStatic (pyInt : String → Option Int) :
    List NodeRec → IdVar → List NodeRec × IdVar × Bool
  | [], v => ([], v, false)
  | n :: ns, v =>
    match n.id with
    | none =>
      let (r, v', e) := reserveStatic pyInt ns v
      (n :: r, v', e)
    | some x =>
      match mustBeInt pyInt (some 1) (some MAX_NODE_ID) x with
      | none =>
        let (r, v', _) := reserveStatic pyInt ns v
        (n :: r, v', true)
      | some x' =>
        if !x'.truthy then
          let (r, v', e) := reserveStatic pyInt ns v
          ({ n with id := some x' } :: r, v', e)
        else match x' with
        | .int i =>
          match reserveId v i with
          | none =>
            let (r, v', _) := reserveStatic pyInt ns v
            ({ n with id := some x' } :: r, v', true)
          | some v1 =>
            let (r, v', e) := reserveStatic pyInt ns v1
            ({ n with id := some x' } :: r, v', e)
        | _ =>
          let (r, v', e) := reserveStatic pyInt ns v
          ({ n with id := some x' } :: r, v', e)

/-- Second loop of `netsim/augment/nodes.py:428-430` (`transform`): nodes without an
identifier get the next free one.  The rest of the loop body (device data, loopback and
management interfaces) does not change the identifier. -/
def assignMissing : List NodeRec → IdVar → Except Fatal (List NodeRec)
  | [], _ => .ok []
  | n :: ns, v =>
    match n.id with
    | some _ =>
      match assignMissing ns v with
      | .error e => .error e
      | .ok r => .ok (n :: r)
    | none =>
      match v.getNext with
      | .error e => .error e
      | .ok (i, v') =>
        match assignMissing ns v' with
        | .error e => .error e
        | .ok r => .ok ({ n with id := some (.int i) } :: r)

/-- `netsim/augment/nodes.py:416-444` (`transform`), the node-identifier part: reserve
static identifiers, `log.exit_on_error`, set the counter, assign missing identifiers. -/
def transformNodeIds (pyInt : String → Option Int) (reserved : IdVar) (ns : List NodeRec) :
    Except Fatal (List NodeRec) :=
  match reserveStatic pyInt ns reserved with
  | (_, _, true) => .error .fatal
  | (ns', v, false) => assignMissing ns' (v.setCounter 1 MAX_NODE_ID)

/-- Validation followed by transformation, as called from `netsim/augment/main.py:60-71`. -/
def nodeIdPipeline (pyInt : String → Option Int) (reserved : IdVar) (ns : List NodeRec) :
    Except Fatal (List NodeRec) :=
  match validateNodeIds pyInt ns with
  | none => .error .fatal
  | some ns' => transformNodeIds pyInt reserved ns'

end Netlab
