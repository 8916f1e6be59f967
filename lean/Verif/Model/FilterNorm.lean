import Verif.Model.Box
/-!
# Normalization of prefix, AS path and community filters (`netsim/modules/routing.py`)
-/

namespace Netlab

/-- `netsim/modules/routing.py:25-36` (`normalize_routing_entry`) for a dictionary -/
def rnDefaults (d : List (String × Val)) (idx : Nat) : List (String × Val) :=
  let d := if (d.lookup "action").isSome then d else setKey d "action" (.str "permit")
  if (d.lookup "sequence").isSome then d else setKey d "sequence" (.int ((idx + 1) * 10))

/-- `netsim/modules/routing.py:25-36` (`normalize_routing_entry`) -/
def rnEntry (v : Val) (idx : Nat) : Val :=
  match v with
  | .dict d => .dict (rnDefaults d idx)
  | _ => v

/-- `netsim/modules/routing.py:85-94`: the `path` attribute; `str` is Python `str` -/
def rnPath (str : Val → String) (v : Val) : List (String × Val) :=
  let d : List (String × Val) := match v with
    | .dict d => d
    | _ => [("path", v)]
  let d := if (d.lookup "path").isNone && (d.lookup "list").isNone then setKey d "path" (.str ".*") else d
  match d.lookup "path" with
  | some (.list l) => setKey d "path" (.str (" ".intercalate (l.map str)))
  | _ => d

/-- `netsim/modules/routing.py:84-97` (`normalize_aspath_entry`) -/
def rnAspath (str : Val → String) (v : Val) (idx : Nat) : Val := rnEntry (.dict (rnPath str v)) idx

/-- `netsim/modules/routing.py:104-106` (`normalize_routing_object`) -/
def rnList (cb : Val → Nat → Val) (idx : Nat) : List Val → List Val
  | [] => []
  | v :: r => cb v idx :: rnList cb (idx + 1) r

/-- The loop in `netsim/modules/routing.py:120-132` (`normalize_routing_objects`) with the number of errors -/
def rnObjects (cb : Val → Nat → Val) (topo : Bool) : List (String × Val) → List (String × Val) × Nat
  | [] => ([], 0)
  | (n, v) :: r =>
    let (r', e) := rnObjects cb topo r
    match v with
    | .null => ((n, .null) :: r', e + if topo then 1 else 0)
    | .list l => ((n, .list (rnList cb 0 l)) :: r', e)
    | v => ((n, .list (rnList cb 0 [v])) :: r', e)

/-- One step of the loop in `netsim/modules/routing.py:437-449`: `kw` is the last part of the namespace, the state is the `routing`
dictionary of the topology or a node, and the number of errors -/
def rnStep (topo : Bool) (st : List (String × Val) × Nat) (p : String × (Val → Nat → Val)) : List (String × Val) × Nat :=
  match st.1.lookup p.1 with
  | some (.dict d) => (setKey st.1 p.1 (.dict (rnObjects p.2 topo d).1), st.2 + (rnObjects p.2 topo d).2)
  | _ => st

/-- `netsim/modules/routing.py:409-426` (`normalize_dispatch`); `policy` is `normalize_policy_entry` (`netsim/modules/routing.py:54-80`). -/
def rnDispatch (str : Val → String) (policy : Val → Nat → Val) : List (String × (Val → Nat → Val)) :=
  [("policy", policy), ("prefix", rnEntry), ("aspath", rnAspath str), ("community", rnAspath str)]

/-- `netsim/modules/routing.py:434-449` (`normalize_routing_data`) -/
def rnData (str : Val → String) (policy : Val → Nat → Val) (topo : Bool) (routing : List (String × Val)) : List (String × Val) × Nat :=
  (rnDispatch str policy).foldl (rnStep topo) (routing, 0)

end Netlab
