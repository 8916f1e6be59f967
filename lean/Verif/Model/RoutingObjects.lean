import Verif.Model.Box
/-!
# Routing policies and filters (`netsim/modules/routing.py`)
-/

namespace Netlab

/-- An entry of a routing object before normalization (`netsim/modules/routing.py:24-35`).  `body` stands for
all other attributes. -/
structure RawEntry (α : Type) where
  sequence : Option Int := none
  action : Option String := none
  body : α
  deriving Repr, DecidableEq

/-- `netsim/modules/routing.py:24-35` (`normalize_routing_entry`) -/
def normalizeEntry {α : Type} (e : RawEntry α) (idx : Nat) : RawEntry α :=
  { e with
    action := some (e.action.getD "permit")
    sequence := some (e.sequence.getD ((idx + 1) * 10)) }

/-- `netsim/modules/routing.py:104-106` (`normalize_routing_object`) starting at position `idx` -/
def normalizeFrom {α : Type} (idx : Nat) : List (RawEntry α) → List (RawEntry α)
  | [] => []
  | e :: r => normalizeEntry e idx :: normalizeFrom (idx + 1) r

/-- `netsim/modules/routing.py:104-106` (`normalize_routing_object`) -/
def normalizeObject {α : Type} (l : List (RawEntry α)) : List (RawEntry α) := normalizeFrom 0 l

/-- A normalized entry (`netsim/modules/routing.py:24-35`); the action is a part of the body. -/
structure RpEntry (α : Type) where
  sequence : Int
  body : α
  deriving Repr, DecidableEq

/-- A routing object of a node (`netsim/modules/routing.py:222-255,593-613`): a list of entries, or the dictionary
created by `expand_community_list` -/
inductive RObj (α : Type) where
  | list (l : List (RpEntry α))
  | expanded (l : List (RpEntry α))
  deriving Repr, DecidableEq

/-- Outcome of `import_routing_object` (`netsim/modules/routing.py:222-255`) -/
inductive ImportRes (α : Type) where
  | missing
  | unchanged
  | imported (l : List (RpEntry α))
  | crash
  deriving Repr, DecidableEq

/-- Merge of node and global entries (`netsim/modules/routing.py:242-255`); `none`: nothing to add. -/
def mergeEntries {α : Type} (np tp : List (RpEntry α)) : Option (List (RpEntry α)) :=
  let sq := np.map (·.sequence)
  let add := tp.filter (fun e => e.sequence ∉ sq)
  if add.isEmpty then none
  else some ((np ++ add).mergeSort (fun a b => a.sequence ≤ b.sequence))

/-- `netsim/modules/routing.py:222-255` (`import_routing_object`): `node` is the value of the node object (`none`:
missing or null), `topo` the global object.  Iterating over the dictionary made by `expand_community_list`
fails: its keys have no sequence number. -/
def importObject {α : Type} (node : Option (RObj α)) (topo : Option (List (RpEntry α))) :
    ImportRes α × Option (RObj α) :=
  match node, topo with
  | none, none => (.missing, none)
  | none, some t => (.imported t, some (.list t))
  | some n, none => (.unchanged, some n)
  | some (.expanded l), some _ => (.crash, some (.expanded l))
  | some (.list np), some tp =>
    match mergeEntries np tp with
    | none => (.unchanged, some (.list np))
    | some r => (.imported r, some (.list r))

/-- The way a community list used in a policy is imported (`netsim/modules/routing.py:268-284`, the loop body of
`import_policy_filters`): a list that was imported is expanded at once. -/
def importCommunity {α : Type} (node : Option (RObj α)) (topo : Option (List (RpEntry α))) :
    ImportRes α × Option (RObj α) :=
  match importObject node topo with
  | (.imported r, _) => if r.isEmpty then (.imported r, some (.list r)) else (.imported r, some (.expanded r))
  | x => x

/-- Value of `min` or `max` in a prefix filter (`netsim/modules/routing.py:474-500`) -/
inductive PfxLen where
  | num (n : Int)
  | perAf (v4 v6 : Option Int)
  deriving Repr, DecidableEq

/-- Address families (`netsim/modules/routing.py:535`) -/
inductive Afam where
  | v4
  | v6
  deriving Repr, DecidableEq

/-- Longest prefix length (`netsim/modules/routing.py:492`) -/
def Afam.maxLen : Afam → Int
  | .v4 => 32
  | .v6 => 128

/-- Entry of a prefix filter (`netsim/modules/routing.py:453-514`) -/
structure PrefixEntry where
  sequence : Int
  action : String
  ipv4 : Option String := none
  ipv6 : Option String := none
  pool : Option String := none
  pfx : Option String := none
  min : Option PfxLen := none
  max : Option PfxLen := none
  deriving Repr, DecidableEq

/-- Prefixes of a pool or a named prefix (`netsim/modules/routing.py:456,460`) -/
structure PfxAf where
  ipv4 : Option String := none
  ipv6 : Option String := none
  deriving Repr, DecidableEq

/-- `netsim/modules/routing.py:453-468` (`expand_prefix_entry`).  `pools` and `named` are the `addressing` and
`prefix` dictionaries (a name that does not exist gives an empty dictionary). -/
def expandPrefixEntry (pools named : List (String × PfxAf)) (e : PrefixEntry) : PrefixEntry :=
  let x1 := e.pool.map (fun p => (pools.lookup p).getD {})
  let x2 := (e.pfx.map (fun p => (named.lookup p).getD {})).or x1
  let e := { e with pool := none, pfx := none }
  match x2 with
  | none => e
  | some x => { e with ipv4 := x.ipv4.or e.ipv4, ipv6 := x.ipv6.or e.ipv6 }

/-- `netsim/modules/routing.py:474-500` (`adjust_pfx_min_max`): the new value and an error flag -/
def adjustMinMax (v : Option PfxLen) (af : Afam) : Option PfxLen × Bool :=
  let check (n : Int) : Option PfxLen × Bool :=
    if n < 0 then (v, true)
    else if n > af.maxLen then (v, true)
    else (some (.num n), false)
  match v with
  | none => (none, false)
  | some (.num n) => check n
  | some (.perAf v4 v6) =>
    match (match af with | .v4 => v4 | .v6 => v6) with
    | none => (v, false)
    | some n => check n

/-- `netsim/modules/routing.py:505-514` (`create_pfx_af_entry`) with the number of errors -/
def createAfEntry (e : PrefixEntry) (af : Afam) : PrefixEntry × Nat :=
  let (mn, e1) := adjustMinMax e.min af
  let (mx, e2) := adjustMinMax e.max af
  ({ e with
    ipv4 := if af = .v4 then e.ipv4 else none
    ipv6 := if af = .v6 then e.ipv6 else none
    min := mn
    max := mx }, e1.toNat + e2.toNat)

/-- Prefix of an entry (`netsim/modules/routing.py:538`) -/
def PrefixEntry.inAf (e : PrefixEntry) : Afam → Option String
  | .v4 => e.ipv4
  | .v6 => e.ipv6

/-- `netsim/modules/routing.py:519-522` (`create_empty_prefix_list`) -/
def emptyPrefixList : Afam → List PrefixEntry
  | .v4 => [{ sequence := 10, action := "deny", ipv4 := some "0.0.0.0/0" }]
  | .v6 => [{ sequence := 10, action := "deny", ipv6 := some "::/0" }]

/-- The list built for an address family (`netsim/modules/routing.py:535-545`) -/
def afPrefixList (l : List PrefixEntry) (af : Afam) : List PrefixEntry × Nat :=
  let r := (l.filter (fun e => (e.inAf af).isSome)).map (fun e => createAfEntry e af)
  (if r.isEmpty then emptyPrefixList af else r.map (·.1), (r.map (·.2)).sum)

/-- `netsim/modules/routing.py:530-547` (`expand_prefix_list`): IPv4 list, IPv6 list and the number of errors -/
def expandPrefixList (pools named : List (String × PfxAf)) (l : List PrefixEntry) :
    List PrefixEntry × List PrefixEntry × Nat :=
  let l := l.map (expandPrefixEntry pools named)
  let (a, e1) := afPrefixList l .v4
  let (b, e2) := afPrefixList l .v6
  (a, b, e1 + e2)

/-- `netsim/modules/routing.py:549-553` (`number_aspath_acl`) -/
def numberAspath (num : List (String × Int)) (name : String) : List (String × Int) :=
  match num.lookup name with
  | some _ => num
  | none => setKey num name ((num.map (·.2)).foldl max 0 + 1)

/-- A community value (`netsim/modules/routing.py:571-577`): an element of a list is a text or a number. -/
inductive CommVal where
  | text (s : String)
  | items (l : List (String ⊕ Int))
  deriving Repr, DecidableEq

/-- Entry of a community list (`netsim/modules/routing.py:566-587`) -/
structure CommEntry where
  regexp : Option String := none
  list : Option CommVal := none
  path : Option CommVal := none
  value : Option String := none
  deriving Repr, DecidableEq

/-- Truth value (`netsim/modules/routing.py:571`) -/
def CommVal.truthy : CommVal → Bool
  | .text s => s != ""
  | .items l => !l.isEmpty

/-- `re.match('^[0-9: ]+$',value)` (`netsim/modules/routing.py:583`); the trailing newline accepted by `$` is not modelled. -/
def isPlainCommunity (s : String) : Bool :=
  s.toList ≠ [] && s.toList.all (fun c => c.isDigit || c == ':' || c == ' ')

/-- `netsim/modules/routing.py:566-587` (`fix_clist_entry`); `none`: `MissingQuotes` is raised. -/
def fixClistEntry (e : CommEntry) : Option CommEntry :=
  match e.regexp with
  | some r => some { e with value := some r }
  | none =>
    let v := match e.list with
      | some v => if v.truthy then v else e.path.getD (.text "")
      | none => e.path.getD (.text "")
    match v with
    | .items l =>
      if l.any (fun x => x.isRight) then none
      else
        let s := " ".intercalate (l.filterMap (fun x => x.getLeft?))
        some (finish s)
    | .text s => some (finish s)
where
  /-- `netsim/modules/routing.py:579-587` -/
  finish (s : String) : CommEntry :=
    if s = "" then { regexp := some ".*", value := some ".*" }
    else if isPlainCommunity s then { value := some s }
    else { regexp := some s, value := some s }

/-- `netsim/modules/routing.py:593-613` (`expand_community_list`): the entries, the `expanded` flag and the number of
errors -/
def expandCommunityList : List CommEntry → List CommEntry × Bool × Nat
  | [] => ([], false, 0)
  | e :: r =>
    let (r', x, n) := expandCommunityList r
    match fixClistEntry e with
    | some e' => (e' :: r', e'.regexp.any (· != "") || x, n)
    | none => (e :: r', x, n + 1)

end Netlab
