/-!
# Values of the netlab data model

netlab keeps the lab topology in nested `Box` objects (Python dictionaries that
keep insertion order) containing lists and scalars read from YAML files.
-/

namespace Netlab

/-- A value in the netlab data model: the Python values that can be read from a
YAML file with `netsim/utils/read.py:96-139` (`read_yaml`).  Floats and dates are
left out.  A dictionary is an association list in insertion order. -/
inductive Val where
  | null
  | bool (b : Bool)
  | int (i : Int)
  | str (s : String)
  | list (l : List Val)
  | dict (d : List (String × Val))
  deriving Repr, Inhabited

namespace Val

mutual

/-- `==` between values (`netsim/data/types.py:196-203`, `netsim/augment/nodes.py:70`, for example): equality of values, where a dictionary is compared together with the order of
its keys, and Booleans differ from numbers. -/
def beq : Val → Val → Bool
  | null, null => true
  | bool a, bool b => a == b
  | int a, int b => a == b
  | str a, str b => a == b
  | list a, list b => beqList a b
  | dict a, dict b => beqDict a b
  | _, _ => false

/-- `==` between lists of values (see `beq`; `netsim/data/types.py:196-203`) -/
def beqList : List Val → List Val → Bool
  | [], [] => true
  | a :: r, b :: s => beq a b && beqList r s
  | _, _ => false

/-- `==` between items of a dictionary (see `beq`; `netsim/data/types.py:196-203`) -/
def beqDict : List (String × Val) → List (String × Val) → Bool
  | [], [] => true
  | (k, a) :: r, (j, b) :: s => k == j && beq a b && beqDict r s
  | _, _ => false

end

mutual

theorem beq_iff : ∀ (a b : Val), beq a b = true ↔ a = b
  | null, b => by cases b <;> simp [beq]
  | bool a, b => by cases b <;> simp [beq]
  | int a, b => by cases b <;> simp [beq]
  | str a, b => by cases b <;> simp [beq]
  | list a, b => by
    cases b with
    | list b => simp [beq, beqList_iff a b]
    | _ => simp [beq]
  | dict a, b => by
    cases b with
    | dict b => simp [beq, beqDict_iff a b]
    | _ => simp [beq]

theorem beqList_iff : ∀ (a b : List Val), beqList a b = true ↔ a = b
  | [], b => by cases b <;> simp [beqList]
  | a :: r, [] => by simp [beqList]
  | a :: r, b :: s => by simp [beqList, beq_iff a b, beqList_iff r s]

theorem beqDict_iff : ∀ (a b : List (String × Val)), beqDict a b = true ↔ a = b
  | [], b => by cases b <;> simp [beqDict]
  | a :: r, [] => by simp [beqDict]
  | (k, a) :: r, (j, b) :: s => by simp [beqDict, beq_iff a b, beqDict_iff r s]

end

instance : BEq Val := ⟨beq⟩

instance : LawfulBEq Val where
  eq_of_beq h := (beq_iff _ _).1 h
  rfl := (beq_iff _ _).2 rfl

instance : DecidableEq Val := fun a b => decidable_of_iff (beq a b = true) (beq_iff a b)

/-- Python truth value (`bool(x)`), used throughout the code in `if x:` tests, for example
`netsim/augment/nodes.py:418`. -/
def truthy : Val → Bool
  | null => false
  | bool b => b
  | int i => i != 0
  | str s => s != ""
  | list l => !l.isEmpty
  | dict d => !d.isEmpty

/-- `isinstance(x,Box)` / `isinstance(x,dict)`, for example `netsim/data/__init__.py:68`. -/
def isDict : Val → Bool
  | dict _ => true
  | _ => false

/-- `isinstance(x,str)`, for example `netsim/data/types.py:461`. -/
def isStr : Val → Bool
  | str _ => true
  | _ => false

/-- `isinstance(x,int) and not isinstance(x,bool)`:
`netsim/data/__init__.py:145-146` and `netsim/data/types.py:223-224` (`is_true_int`). -/
def isTrueInt : Val → Bool
  | int _ => true
  | _ => false

end Val
end Netlab
