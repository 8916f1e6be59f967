import Verif.Model.Val
/-!
# Identifier sets and auto-assigned identifiers (`netsim/modules/_dataplane.py`)

The Python code keeps one global variable per namespace (`global_vars.get(f'{name}_id')`)
with three attributes: the set of identifiers in use (`value`), the auto-assign counter
(`next`) and its upper limit (`max`).
-/

namespace Netlab

/-- Members of an identifier set are integers or strings
(`netsim/modules/_dataplane.py:45-52` filters everything else out). -/
inductive IdVal where
  | i (n : Int)
  | s (t : String)
  deriving Repr, DecidableEq

/-- The global variable `<name>_id` (`netsim/modules/_dataplane.py:56-84`).  A set is
a list tested for membership; a missing `value` attribute is the empty set, which is
what every reader of the attribute turns it into (lines 58-59, 81-82). -/
structure IdVar where
  value : List IdVal := []
  next : Option Int := none
  max : Int := 4096
  deriving Repr, DecidableEq

/-- A fatal error (`log.fatal`, `netsim/utils/log.py:111-132`): the program stops. -/
inductive Fatal where
  | fatal
  deriving Repr, DecidableEq

/-- `netsim/modules/_dataplane.py:39-54` (`build_id_set`): the values of attribute `attr`
in the dictionaries listed in `ds`; entries that are not dictionaries, nulls, Booleans and
containers are skipped. The check at lines 40-43 (missing or non-dictionary data structure)
is outside of the model: `ds` is the dictionary. -/
def buildIdSet (ds : List (String × Val)) (attr : String) : List IdVal :=
  ds.filterMap fun kv =>
    match kv.2 with
    | .dict d =>
      match d.lookup attr with
      | some (.int n) => some (.i n)
      | some (.str t) => some (.s t)
      | _ => none
    | _ => none

/-- `netsim/modules/_dataplane.py:63-66` (`create_id_set`) -/
def IdVar.create (v : IdVar) : IdVar := { v with value := [] }

/-- `netsim/modules/_dataplane.py:68-71` (`extend_id_set`) -/
def IdVar.extend (v : IdVar) (add : List IdVal) : IdVar := { v with value := add ++ v.value }

/-- `netsim/modules/_dataplane.py:73-75` (`is_id_used`) -/
def IdVar.isUsed (v : IdVar) (x : IdVal) : Bool := v.value.contains x

/-- `netsim/modules/_dataplane.py:77-84` (`set_id_counter`) -/
def IdVar.setCounter (v : IdVar) (start max : Int) : IdVar :=
  { v with next := some start, max := max }

/-- The `while True` loop in `netsim/modules/_dataplane.py:90-100`: returns the
identifier that is going to be used, or the fatal error. -/
def nextLoop (used : List IdVal) (max next : Int) : Except Fatal Int :=
  if !used.contains (.i next) then .ok next
  else if next + 1 > max then .error .fatal
  else nextLoop used max (next + 1)
termination_by (max - next).toNat
decreasing_by omega

/-- `netsim/modules/_dataplane.py:86-100` (`get_next_id`).  The counter is left at the
returned identifier. -/
def IdVar.getNext (v : IdVar) : Except Fatal (Int × IdVar) :=
  match v.next with
  | none => .error .fatal
  | some start =>
    match nextLoop v.value v.max start with
    | .error e => .error e
    | .ok n => .ok (n, { v with value := .i n :: v.value, next := some n })

/-- Requests served by the identifier-set functions of `netsim/modules/_dataplane.py:63-100`:
the vocabulary of the histories in C01. -/
inductive IdOp where
  | extend (add : List IdVal)
  | setCounter (start max : Int)
  | alloc
  deriving Repr

/-- Execute one request (`netsim/modules/_dataplane.py:68-100`); `alloc` outputs the new
identifier. -/
def IdVar.step (v : IdVar) : IdOp → Except Fatal (List Int × IdVar)
  | .extend add => .ok ([], v.extend add)
  | .setCounter a b => .ok ([], v.setCounter a b)
  | .alloc =>
    match v.getNext with
    | .error e => .error e
    | .ok (n, v') => .ok ([n], v')

/-- Execute a history of requests (calls into `netsim/modules/_dataplane.py:63-100` made in
this order by the modules), collecting the allocated identifiers in order. -/
def IdVar.run (v : IdVar) : List IdOp → Except Fatal (List Int × IdVar)
  | [] => .ok ([], v)
  | op :: ops =>
    match v.step op with
    | .error e => .error e
    | .ok (o, v') =>
      match v'.run ops with
      | .error e => .error e
      | .ok (os, v'') => .ok (o ++ os, v'')

end Netlab
