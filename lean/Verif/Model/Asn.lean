import Verif.Model.Types
/-!
# AS numbers and Python integers (`netsim/data/types.py`)
-/

namespace Netlab

/-- White space removed by Python's `int(str)` (ASCII part), called in
`netsim/data/types.py:516` and `netsim/data/types.py:566`. -/
def pySpace (c : Char) : Bool := c == ' ' || c == '\t' || c == '\n' || c == '\r' || c == '\x0b' || c == '\x0c'

/-- Decimal digits with single underscores between them, as accepted by Python's `int(str)`
(`netsim/data/types.py:516`, `netsim/data/types.py:566`).  `seen` tells whether the previous
character was a digit. -/
def pyDigits (acc : Nat) (seen : Bool) : List Char → Option Nat
  | [] => if seen then some acc else none
  | c :: r =>
    if c == '_' then (if seen then pyDigits acc false r else none)
    else if c.isDigit then pyDigits (10 * acc + (c.toNat - '0'.toNat)) true r
    else none

/-- Optional sign followed by digits, as accepted by Python's `int(str)`
(`netsim/data/types.py:516`, `netsim/data/types.py:566`) -/
def pySigned : List Char → Option Int
  | '-' :: r => (pyDigits 0 false r).map (fun n => -(n : Int))
  | '+' :: r => (pyDigits 0 false r).map (fun n => (n : Int))
  | r => (pyDigits 0 false r).map (fun n => (n : Int))

/-- Python's `int(str)` for ASCII strings (`netsim/data/types.py:516`,
`netsim/data/types.py:566`); `none` is the exception.  Decimal digits outside ASCII are not
modelled. -/
def pyIntChars (l : List Char) : Option Int :=
  pySigned (((l.dropWhile pySpace).reverse.dropWhile pySpace).reverse)

/-- Python's `int(str)` (`netsim/data/types.py:516`) on Lean strings -/
def pyIntStr (s : String) : Option Int := pyIntChars s.toList

/-- `value.split('.')` (`netsim/data/types.py:565`, `netsim/data/types.py:576`) -/
def splitDot : List Char → List (List Char)
  | [] => [[]]
  | c :: r =>
    if c == '.' then [] :: splitDot r
    else match splitDot r with
      | [] => [[c]]
      | p :: ps => (c :: p) :: ps

/-- The loop in `netsim/data/types.py:581-589`: `none` is one of the error returns,
otherwise the value of `asv`. -/
def asdotLoop (asv : Int) : List (List Char) → Option Int
  | [] => some asv
  | p :: ps =>
    match pyIntChars p with
    | none => none
    | some asp => if asp < 0 || asp > 65535 then none else asdotLoop (65536 * asv + asp) ps

/-- `netsim/data/types.py:572-594` (`asdot_parsing`), `true` = valid -/
def asdotParsing (s : String) : Bool :=
  let parts := splitDot s.toList
  if parts.length > 2 then false
  else match asdotLoop 0 parts with
    | none => false
    | some asv => !(asv ≤ 0 || asv ≥ 2 ^ 32)

/-- `netsim/data/types.py:563-568` (`transform_asdot`), `none` = exception in `int` -/
def transformAsdot (asv : Int) : List (List Char) → Option Int
  | [] => some asv
  | p :: ps =>
    match pyIntChars p with
    | none => none
    | some asp => transformAsdot (65536 * asv + asp) ps

/-- `netsim/data/types.py:596-611` (`must_be_asn`) followed by `post_validation`
(`netsim/data/types.py:324-340`): `none` is a validation error, otherwise the result is the
value stored in the parent object. -/
def mustBeAsn (v : Val) : Option Val :=
  match v with
  | .str s =>
    if asdotParsing s then (transformAsdot 0 (splitDot s.toList)).map Val.int else none
  | .int i => if i < 0 || i > 4294967295 then none else some (.int i)
  | _ => none

/-- `netsim/data/types.py:552-561` (`must_be_asn2`) -/
def mustBeAsn2 (v : Val) : Option Val :=
  match v with
  | .int i => if i < 0 || i > 65535 then none else some (.int i)
  | _ => none

end Netlab
