import Verif.Model.Evpn
/-!
# Names, prefixes, group data and cleanup of the topology

`netsim/utils/strings.py:204-211`, `netsim/augment/topology.py:18-108`, `netsim/augment/addressing.py:90-95`, `netsim/augment/addressing.py:349-409`,
`netsim/augment/groups.py:429-461`, `netsim/augment/groups.py:652-661`, `netsim/augment/links.py:913-935`
-/

namespace Netlab

/-! ### Identifiers -/

/-- A decimal digit (`netsim/utils/strings.py:207`) -/
def tuDigit (c : Char) : Bool := '0'.toNat ≤ c.toNat && c.toNat ≤ '9'.toNat

/-- A character allowed in an identifier, `[a-zA-Z0-9_]` (`netsim/utils/strings.py:205`) -/
def tuIdChar (c : Char) : Bool :=
  ('a'.toNat ≤ c.toNat && c.toNat ≤ 'z'.toNat) || ('A'.toNat ≤ c.toNat && c.toNat ≤ 'Z'.toNat) || tuDigit c || c == '_'

/-- `netsim/utils/strings.py:204-211` (`make_id`), on lists of characters -/
def tuMakeId (txt : List Char) : List Char :=
  let id := (txt.map (fun c => if tuIdChar c then c else '_')).dropWhile tuDigit
  if id.head? = some '_' ∧ txt.head? ≠ some '_' then
    let r := id.dropWhile (· == '_')
    if r.isEmpty then id else r
  else id

/-- `netsim/augment/topology.py:18-23`: the name of a topology without a name; `dir` is the name of the directory with the topology file -/
def tuTopoName (dir : List Char) : List Char :=
  tuMakeId ((dir.take 12).map (fun c => if c = ' ' then '_' else if c = '.' then '_' else c))

/-! ### Prefixes -/

/-- A value in a parsed prefix: an IP prefix or a value copied from the topology (`netsim/augment/addressing.py:390-400`) -/
inductive TuPfx (N : Type) where
  | net (n : N)
  | raw (v : Val)

/-- Values that are false in Python (`netsim/augment/addressing.py:354`) -/
def tuFalsy : Val → Bool
  | .null => true
  | .bool b => !b
  | .int i => i == 0
  | .str s => s == ""
  | .list l => l.isEmpty
  | .dict d => d.isEmpty

/-- Functions used by `parse_prefix`: an evaluated named prefix (`netsim/augment/addressing.py:363-365`), `IPv4Network` (`netsim/augment/addressing.py:367`)
and `ip_network` (`netsim/augment/addressing.py:400`); no value when there is no such named prefix or when the parser raises an exception -/
structure TuOracle (N : Type) where
  named : String → Option (List (String × TuPfx N))
  net4 : String → Option N
  net : Val → Option N

/-- `netsim/augment/addressing.py:390-407`: the items of the prefix; no value when a prefix cannot be parsed -/
def tuItems (o : TuOracle N) : List (String × Val) → Option (List (String × TuPfx N))
  | [] => some []
  | (af, v) :: r =>
    if af ≠ "ipv4" ∧ af ≠ "ipv6" then (tuItems o r).map ((af, .raw v) :: ·)
    else
      match v with
      | .bool b => (tuItems o r).map ((af, .raw (.bool b)) :: ·)
      | v =>
        match o.net v with
        | none => none
        | some n => (tuItems o r).map ((af, .net n) :: ·)

/-- `netsim/augment/addressing.py:379-388`: rename the legacy address family; no value when both address families are used -/
def tuLegacy (d : List (String × Val)) : Option (List (String × Val)) :=
  match d.lookup "ip" with
  | none => some d
  | some v => if (d.lookup "ipv4").isSome then none else some ((d ++ [("ipv4", v)]).filter (fun x => x.1 != "ip"))

/-- The parsed prefix and the number of errors: an error produces an empty prefix (`netsim/augment/addressing.py:383-386`, `netsim/augment/addressing.py:402-407`) -/
def tuOrError (x : Option (List (String × TuPfx N))) : List (String × TuPfx N) × Nat :=
  match x with
  | none => ([], 1)
  | some l => (l, 0)

/-- `netsim/augment/addressing.py:349-409` (`parse_prefix`): the parsed prefix and the number of errors; no value on a fatal error -/
def tuParsePrefix (o : TuOracle N) (p : Val) : Option (List (String × TuPfx N) × Nat) :=
  if tuFalsy p then some ([], 0)
  else
    match p with
    | .str s =>
      match o.named s with
      | some l => some (l, 0)
      | none => some (tuOrError ((o.net4 s).map (fun n => [("ipv4", TuPfx.net n)])))
    | .dict d => some (tuOrError ((tuLegacy d).bind (tuItems o)))
    | _ => none

/-! ### Data exported from groups -/

/-- Attributes of a VLAN or VRF (`netsim/augment/groups.py:448-461`) -/
abbrev TuObj := List (String × Val)

/-- Number of attributes with another value in the global object (`netsim/augment/groups.py:452-458`) -/
def tuConflicts (uniq : List String) (glob obj : TuObj) : Nat :=
  (uniq.filter (fun a =>
    match glob.lookup a, obj.lookup a with
    | some x, some y => x != y
    | _, _ => false)).length

/-- Copy missing values to the global object (`netsim/augment/groups.py:459-461`) -/
def tuCopyMissing (copy : List String) (glob obj : TuObj) : TuObj :=
  copy.foldl (fun g a =>
    match obj.lookup a with
    | none => g
    | some v => if (g.lookup a).isSome then g else g ++ [(a, v)]) glob

/-- Set the value of an object; a new object is added at the end (`netsim/augment/groups.py:450-451`) -/
def tuSetObj (name : String) (v : TuObj) : List (String × Option TuObj) → List (String × Option TuObj)
  | [] => [(name, some v)]
  | x :: r => if x.1 = name then (name, some v) :: r else x :: tuSetObj name v r

/-- The global object (`netsim/augment/groups.py:450-451`): an object that is not defined, or has no value, is empty -/
def tuGetObj (name : String) (t : List (String × Option TuObj)) : TuObj := ((t.lookup name).getD none).getD []

/-- `netsim/augment/groups.py:446-461`: one object from a group; the object is empty when it has no value -/
def tuExportObj (uniq copy : List String) (s : List (String × Option TuObj) × Nat) (x : String × Option TuObj) : List (String × Option TuObj) × Nat :=
  let glob := tuGetObj x.1 s.1
  let obj := x.2.getD []
  (tuSetObj x.1 (tuCopyMissing copy glob obj) s.1, s.2 + tuConflicts uniq glob obj)

/-- `netsim/augment/groups.py:429-461` (`export_group_node_data`): the global objects and the number of errors.  A group has a dictionary of objects in
`node_data` or it doesn't (an invalid value, which is an error in `must_be_dict`, is left out). -/
def tuExport (uniq copy : List String) (groups : List (String × Option (List (String × Option TuObj)))) (t : List (String × Option TuObj)) :
    List (String × Option TuObj) × Nat :=
  groups.foldl (fun s g =>
    if g.1.toList.head? = some '_' then s
    else
      match g.2 with
      | none => s
      | some objs => objs.foldl (tuExportObj (if uniq.isEmpty then copy else uniq) copy) s) (t, 0)

/-! ### Counts of nodes on a link -/

/-- A node: is it a host, is it a daemon? (`netsim/augment/links.py:922-930`) -/
structure TuNode where
  host : Bool
  daemon : Bool

/-- `netsim/augment/links.py:920-929`: number of hosts and routers -/
def tuCount (nodes : List TuNode) : Nat × Nat :=
  nodes.foldl (fun s n => if n.host then (s.1 + 1, if n.daemon then s.2 + 1 else s.2) else (s.1, s.2 + 1)) (0, 0)

/-- `netsim/augment/links.py:913-935` (`count_link_nodes`): `node_count`, `host_count` and `router_count` set on a link that has no `node_count` -/
def tuCountLink (link : List (String × Int)) (nodes : List TuNode) : List (String × Int) :=
  if (link.lookup "node_count").isSome then link
  else
    let c := tuCount nodes
    let l1 := link ++ [("node_count", (nodes.length : Int))]
    let set := fun (l : List (String × Int)) (k : String) (v : Nat) =>
      if v = 0 then l else (l.filter (fun x => x.1 != k)) ++ [(k, (v : Int))]
    set (set l1 "host_count" c.1) "router_count" c.2

/-! ### Cleanup -/

/-- `netsim/augment/topology.py:95-108` (`cleanup_topology`): remove generators from address pools -/
def tuCleanPools (pools : List (String × List (String × Val))) : List (String × List (String × Val)) :=
  pools.map (fun p => (p.1, p.2.filter (fun x => !(pySubstr "_pfx".toList x.1.toList || pySubstr "_eui".toList x.1.toList))))

/-- `netsim/augment/groups.py:652-661` (`cleanup`): remove group settings, and groups when nothing is left -/
def tuCleanGroups (groups : Option (List (String × Val))) : Option (List (String × Val)) :=
  match groups with
  | none => none
  | some g =>
    let r := g.filter (fun x => x.1.toList.head? != some '_')
    if r.isEmpty then none else some r

end Netlab
