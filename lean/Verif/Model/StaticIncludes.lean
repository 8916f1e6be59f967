import Verif.Model.Box
/-!
# Includes in static route lists (`netsim/modules/routing.py`)
-/

namespace Netlab

/-- Entry of a static route list (`netsim/modules/routing.py:303-345`).  `nexthop` is a dictionary of scalar values, `body`
stands for the other attributes, `remove` is the flag set on processed entries. -/
structure SrEntry where
  incl : Option String := none
  nexthop : Option (List (String × String)) := none
  body : String := ""
  remove : Bool := false
  deriving Repr, DecidableEq

/-- `sr_entry + { 'nexthop': nh }` (`netsim/modules/routing.py:327`): dictionaries are merged -/
def mergeFlat (a b : List (String × String)) : List (String × String) :=
  b.foldl (fun d p => setKey d p.1 p.2) a

/-- Entry included by `e` (`netsim/modules/routing.py:325-328`) -/
def withNexthop (e x : SrEntry) : SrEntry :=
  match e.nexthop with
  | none => x
  | some nh => { x with nexthop := some (mergeFlat (x.nexthop.getD []) nh) }

/-- One pass over the list (`netsim/modules/routing.py:310-330`): the list with `remove` flags, entries appended to
it, `include_rq` and the number of errors -/
def includePass (static : List (String × List SrEntry)) : List SrEntry → List SrEntry × List SrEntry × Bool × Nat
  | [] => ([], [], false, 0)
  | e :: r =>
    let (l, a, rq, n) := includePass static r
    match e.incl with
    | none => (e :: l, a, rq, n)
    | some name =>
      match static.lookup name with
      | none => ({ e with remove := true } :: l, a, rq, n + 1)
      | some x => ({ e with remove := true } :: l, x.map (withNexthop e) ++ a, true, n)

/-- The loop in `include_global_static_routes` (`netsim/modules/routing.py:309-345`) and in
`process_static_route_includes` (`:680-718`): `limit + 1` is the value of `include_limit` at the start of the pass. -/
def includeLoop (static : List (String × List SrEntry)) : Nat → List SrEntry → List SrEntry × Nat
  | 0, l =>
    let (l', a, rq, n) := includePass static l
    if rq then ((l' ++ a).filter (fun e => !e.remove), n + 1) else (l', n)
  | limit + 1, l =>
    let (l', a, rq, n) := includePass static l
    if rq then
      let (r, m) := includeLoop static limit ((l' ++ a).filter (fun e => !e.remove))
      (r, n + m)
    else (l', n)

/-- `netsim/modules/routing.py:303-345` (`include_global_static_routes`) -/
def includeStatic (static : List (String × List SrEntry)) (l : List SrEntry) : List SrEntry × Nat :=
  includeLoop static 19 l

end Netlab
