import Verif.Model.Val
/-!
# Data type validators (`netsim/data/types.py`)
-/

namespace Netlab

/-- `netsim/data/types.py:484-505` (`check_int_type`).  The error texts are dropped:
`true` stands for `{ '_valid': True }`. -/
def checkIntType (v : Val) (mn mx : Option Int) : Bool :=
  match v with
  | .int i =>
    match mn, mx with
    | some a, some b => !(i < a || i > b)
    | some a, none => !(i < a)
    | none, some b => !(i > b)
    | none, none => true
  | _ => false

/-- `netsim/data/types.py:507-524` (`must_be_int`) followed by the transformation in
`post_validation` (`types.py:324-340`).  `pyInt` is Python's `int(str)` (`none` = the
exception).  The result is `none` for a validation error, otherwise the value stored
back into the parent object. -/
def mustBeInt (pyInt : String → Option Int) (mn mx : Option Int) (v : Val) : Option Val :=
  match v with
  | .str s =>
    match pyInt s with
    | some i => some (.int i)
    | none => if checkIntType v mn mx then some v else none
  | v => if checkIntType v mn mx then some v else none

end Netlab
