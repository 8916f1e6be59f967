import Verif.Model.Settings
/-!
# Data type test framework (`netsim/data/types.py:186-421`)
-/

namespace Netlab

/-- The status returned by a validator (`netsim/data/types.py:302-311`) -/
structure TtStatus where
  valid : Bool
  transform : Option (Val → Val) := none

/-- Arguments of a type test and of the decorator (`netsim/data/types.py:342-364`): a missing value is `none`. -/
structure TtArgs where
  validValues : List Val := []
  createEmpty : Option Bool := none
  trueValue : Option Val := none
  falseValue : Option Val := none
  emptyValue : Option Val := none
  abort : Bool := false
  raw : Bool := false
  silent : Bool := false

/-- The results of a type test: the parent dictionary, the value, the number of errors, and whether an exception was raised (`netsim/data/types.py:250-330`) -/
structure TtRes where
  parent : List (String × Val)
  value : Val
  errors : Nat := 0
  raised : Bool := false

/-- `netsim/data/types.py:286-299`: Boolean values are replaced when there is a `true_value`. -/
def ttBool (a : TtArgs) (parent : List (String × Val)) (key : String) (v : Val) : TtRes :=
  match v, a.trueValue, a.falseValue with
  | .bool true, some t, _ => { parent := setKey parent key t, value := t }
  | .bool false, some _, none => { parent := popKey parent key, value := .null }
  | .bool false, some _, some f => { parent := setKey parent key f, value := f }
  | v, _, _ => { parent := parent, value := v }

/-- `netsim/data/types.py:259-300` (`get_value_to_check`).  The key has no dots. -/
def ttGet (a : TtArgs) (parent : List (String × Val)) (key : String) : TtRes :=
  match (parent.lookup key).getD .null with
  | .null =>
    match a.emptyValue with
    | some e =>
      if a.createEmpty.getD true then ttBool a (setKey parent key e) key e
      else { parent := parent, value := .null, raised := a.abort }
    | none => { parent := parent, value := .null }
  | v => ttBool a parent key v

/-- `netsim/data/types.py:313-340` (`post_validation`) -/
def ttPost (a : TtArgs) (s : TtStatus) (parent : List (String × Val)) (key : String) (v : Val) : TtRes :=
  if s.valid then
    match s.transform with
    | some f => { parent := setKey parent key (f v), value := f v }
    | none => { parent := parent, value := v }
  else { parent := parent, value := .null, errors := if a.raw || a.silent then 0 else 1, raised := a.abort }

/-- Is the value valid? (`netsim/data/types.py:196-203`) -/
def ttAllowed (expected : List Val) (v : Val) : Bool :=
  match v with
  | .list l => l.all (fun x => expected.contains x)
  | v => expected.contains v

/-- Can the error message be created? (`netsim/data/types.py:200, 210`): only strings can be joined. -/
def ttJoin (a : TtArgs) (v : Val) : Bool :=
  (match v with
    | .list l => (l.filter (fun x => !a.validValues.contains x)).all Val.isStr
    | _ => true) && (a.raw || a.silent || a.validValues.all Val.isStr)

/-- `netsim/data/types.py:186-217` (`check_valid_values`) and its call in lines 400-411; `none` is a `TypeError`. -/
def ttCheck (a : TtArgs) (r : TtRes) : Option TtRes :=
  if a.validValues.isEmpty || ttAllowed a.validValues r.value then some r
  else if ttJoin a r.value then some { r with errors := r.errors + (if a.raw || a.silent then 0 else 1), raised := a.abort }
  else none

/-- `netsim/data/types.py:353-417` (`execute_test`) with a parent dictionary; `none` is a `TypeError`. -/
def ttRun (test : Val → TtStatus) (a : TtArgs) (parent : List (String × Val)) (key : String) : Option TtRes :=
  let g := ttGet a parent key
  if g.raised || (g.parent.lookup key).isNone then some g
  else
    let s := test g.value
    let p := ttPost a s g.parent key g.value
    if p.raised || !s.valid then some p else ttCheck a p

/-- `netsim/data/types.py:437-453` (`must_be_list`) -/
def ttList (v : Val) : TtStatus :=
  match v with
  | .list _ => { valid := true }
  | .str _ => { valid := true, transform := some (fun x => .list [x]) }
  | .int _ => { valid := true, transform := some (fun x => .list [x]) }
  | .bool _ => { valid := true, transform := some (fun x => .list [x]) }
  | _ => { valid := false }

/-- `netsim/data/types.py:455-457` (`must_be_dict`) -/
def ttDict (v : Val) : TtStatus := { valid := v.isDict }

/-- `netsim/data/types.py:459-465` (`must_be_string`, `must_be_str`) -/
def ttStr (v : Val) : TtStatus := { valid := v.isStr }

end Netlab
