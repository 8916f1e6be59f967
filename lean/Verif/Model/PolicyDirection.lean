import Verif.Model.Validate
/-!
# Directions and values of BGP policy attributes (`netsim/extra/bgp.policy/plugin.py`)
-/

namespace Netlab

/-- Device restriction for a direction of an attribute (`netsim/extra/bgp.policy/plugin.py:129-135`): no restriction (a Boolean
value), or a list of acceptable types and values (a single value is changed into a list). -/
inductive DirFeature where
  | unrestricted
  | oneOf (l : List Val)

/-- An error that was already reported (`netsim/extra/bgp.policy/plugin.py:104`, dictionary `_attr_error`): node, attribute,
direction and the value; no value stands for an unsupported direction. -/
structure DirError where
  node : String
  attr : String
  dir : String
  value : Option Val
  deriving DecidableEq

/-- `netsim/extra/bgp.policy/plugin.py:135`: the value has the expected type or is one of the expected values.  Values are
compared as in `Val.beq`. -/
def dirValueOk (l : List Val) (v : Val) : Bool := l.contains (.str (typeName v)) || l.contains v

/-- `netsim/extra/bgp.policy/plugin.py:117-150`: one direction; `feat` is the device feature (a dictionary), `errs` the errors
reported so far. -/
def checkDir (feat : List (String × DirFeature)) (node attr : String) (errs : List DirError) (kw : String) (v : Val) :
    List DirError :=
  match feat.lookup kw with
  | none =>
    if errs.any (fun e => e.node == node && e.attr == attr && e.dir == kw) then errs
    else errs ++ [⟨node, attr, kw, none⟩]
  | some .unrestricted => errs
  | some (.oneOf l) =>
    if dirValueOk l v then errs
    else if errs.contains ⟨node, attr, kw, some v⟩ then errs
    else errs ++ [⟨node, attr, kw, some v⟩]

/-- An attribute of a BGP neighbor (`netsim/extra/bgp.policy/plugin.py:106`) -/
structure DirCheck where
  node : String
  attr : String
  value : Val

/-- `netsim/extra/bgp.policy/plugin.py:106-150` (`check_attribute_direction`): `feat` tells the restrictions for a node and an
attribute; `none` when the feature is not a dictionary. -/
def checkAttrDirection (feat : String → String → Option (List (String × DirFeature))) (errs : List DirError) (c : DirCheck) :
    List DirError :=
  match c.value, feat c.node c.attr with
  | .dict d, some f => d.foldl (fun e p => checkDir f c.node c.attr e p.1 p.2) errs
  | _, _ => errs

/-- All attributes of all BGP neighbors, in the order in which they are processed (`netsim/extra/bgp.policy/plugin.py:166-189`,
the calls of `check_attribute_direction`) -/
def checkDirections (feat : String → String → Option (List (String × DirFeature))) (l : List DirCheck) : List DirError :=
  l.foldl (checkAttrDirection feat) []

end Netlab
