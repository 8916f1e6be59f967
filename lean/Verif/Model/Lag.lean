import Verif.Model.IdSet
import Verif.Model.Net
/-!
# Link aggregation groups

Numbering of LAG interfaces, MLAG sides, member links and MLAG peers (`netsim/modules/lag.py`).

Simplifications:

* member links are in the normalized form (`normalized_members`, lines 85-108): two interfaces on different nodes, with
  the `lag.ifindex` of the interface (or of the member link);
* device support (`check_lag_config`, `check_mlag_support`) is a parameter;
* `sorted` is a parameter;
* other attributes of interfaces are not modelled;
* an error in one LAG link does not prevent the processing of other LAG links (as in the code), but the topology is not
  used when there are errors.
-/

namespace Netlab

/-- A member link: its nodes and their `lag.ifindex`, `netsim/modules/lag.py:85-108`. -/
structure LagMember where
  a : String
  b : String
  ixA : Option Int
  ixB : Option Int
deriving DecidableEq, Repr

/-- A link with `lag.members`: `netsim/modules/lag.py:154-171`. -/
structure LagLink where
  linkindex : Int
  ifindex : Option Int
  members : List LagMember
deriving DecidableEq, Repr

/-! ### Sides of a LAG -/

/-- Add a node to a set (Python `set.add`): `netsim/modules/lag.py:189-193`. -/
def setAdd (s : List String) (x : String) : List String := if s.contains x then s else s ++ [x]

/-- Is the node or its MLAG peer in the set?  `netsim/modules/lag.py:185-191` -/
def onSide (pairs : List (String × String)) (s : List String) (x : String) : Bool :=
  s.contains x || match pairs.lookup x with
    | some p => s.contains p
    | none => false

/-- One member link: `netsim/modules/lag.py:182-200`; `none` is an error. -/
def splitMember (pairs : List (String × String)) (s : List String × List String) (m : LagMember) :
    Option (List String × List String) :=
  if onSide pairs s.1 m.a || onSide pairs s.2 m.b then some (setAdd s.1 m.a, setAdd s.2 m.b)
  else if onSide pairs s.2 m.a || onSide pairs s.1 m.b then some (setAdd s.1 m.b, setAdd s.2 m.a)
  else none

/-- The remaining member links: `netsim/modules/lag.py:182-200`. -/
def splitMembers (pairs : List (String × String)) : List LagMember → List String × List String →
    Option (List String × List String)
  | [], s => some s
  | m :: rest, s =>
    match splitMember pairs s m with
    | none => none
    | some s => splitMembers pairs rest s

/-- Split the nodes into two sides: `netsim/modules/lag.py:180-200`. -/
def lagSides (pairs : List (String × String)) : List LagMember → Option (List String × List String)
  | [] => none
  | m :: rest => splitMembers pairs rest ([m.a], [m.b])

/-! ### Numbers of LAG interfaces -/

/-- `_lag_ifindex` of nodes and the global set of LAG identifiers: `netsim/modules/lag.py:19-25`, `118`. -/
structure LagState where
  next : String → Option Int
  ids : IdVar

/-- The environment: `netsim/modules/lag.py:50-79`, `141-149`. -/
structure LagEnv where
  start : Int
  lagOk : String → Bool
  mlagOk : String → Bool
  reserved : String → List Int
  pairs : List (String × String)
  sort : List String → List String

/-- Remember the next number: `netsim/modules/lag.py:136`. -/
def LagState.assign (st : LagState) (n : String) (ix : Int) : LagState :=
  { st with next := fun m => if m = n then some (ix + 1) else st.next m }

/-- `set_lag_ifindex`, `netsim/modules/lag.py:113-139` (without the check of reserved values).  `bond` is
`bond.lag.ifindex`, `ix` the `lag.ifindex` of the interface.  Returns the new state, the new value of `bond.lag.ifindex`
and the number of the interface. -/
def setLagIfindex (env : LagEnv) (st : LagState) (bond : Option Int) (n : String) (ix : Option Int) (mside : Bool) :
    Except Fatal (LagState × Option Int × Int) :=
  match ix with
  | some i => .ok (st, (if bond.isNone || mside then some i else bond), i)
  | none =>
    match bond with
    | none =>
      if mside then
        match st.next n with
        | some v => .ok (st.assign n v, some v, v)
        | none =>
          match st.ids.getNext with
          | .error e => .error e
          | .ok (g, ids) => .ok ({ st with ids := ids }.assign n g, some g, g)
      else
        let v := (st.next n).getD env.start
        .ok (st.assign n v, none, v)
    | some b =>
      match st.next n with
      | some v =>
        if v ≠ 0 ∧ b < v then .ok (st.assign n v, (if mside then some v else some b), v)
        else .ok (st.assign n b, some b, b)
      | none => .ok (st.assign n b, some b, b)

/-- The `lag.ifindex` of a node in member links (the last one wins): `netsim/modules/lag.py:215-220`. -/
def memberIx (members : List LagMember) (n : String) : Option Int :=
  members.foldl (fun r m =>
    if m.a = n then (if m.ixA.isSome then m.ixA else r)
    else if m.b = n then (if m.ixB.isSome then m.ixB else r)
    else r) none

/-- A LAG interface: `netsim/modules/lag.py:214-234`. -/
structure LagIf where
  linkindex : Int
  node : String
  ifindex : Int
  mlag : Bool
deriving DecidableEq, Repr

/-- Result of the processing: state, interfaces and number of errors, `netsim/modules/lag.py:210-234`. -/
structure LagRes where
  st : LagState
  ifs : List LagIf
  errs : Nat
  /-- the processing of the link was abandoned -/
  abort : Bool

/-- The nodes on one side of the LAG: `netsim/modules/lag.py:210-234`. -/
def lagSide (env : LagEnv) (l : LagLink) (mside : Bool) : List String → Option Int → LagState → Except Fatal LagRes
  | [], _, st => .ok ⟨st, [], 0, false⟩
  | n :: rest, bond, st =>
    if !(if mside then env.mlagOk n else env.lagOk n) then .ok ⟨st, [], 1, true⟩
    else
      match setLagIfindex env st bond n (memberIx l.members n) mside with
      | .error e => .error e
      | .ok (st, bond, ix) =>
        if (env.reserved n).contains ix then .ok ⟨st, [], 1, true⟩
        else
          match lagSide env l mside rest bond st with
          | .error e => .error e
          | .ok r => .ok { r with ifs := ⟨l.linkindex, n, ix, mside⟩ :: r.ifs }

/-- `create_lag_interfaces`, `netsim/modules/lag.py:176-234`. -/
def lagInterfaces (env : LagEnv) (l : LagLink) (st : LagState) : Except Fatal LagRes :=
  match lagSides env.pairs l.members with
  | none => .ok ⟨st, [], 1, true⟩
  | some (a, b) =>
    match lagSide env l (a.length == 2) (env.sort a) l.ifindex st with
    | .error e => .error e
    | .ok r =>
      if r.abort then .ok r
      else
        match lagSide env l (b.length == 2) (env.sort b) l.ifindex r.st with
        | .error e => .error e
        | .ok s => .ok ⟨s.st, r.ifs ++ s.ifs, r.errs + s.errs, s.abort⟩

/-- All LAG links: `netsim/modules/lag.py:413-415`. -/
def allLags (env : LagEnv) : List LagLink → LagState → Except Fatal LagRes
  | [], st => .ok ⟨st, [], 0, false⟩
  | l :: rest, st =>
    match lagInterfaces env l st with
    | .error e => .error e
    | .ok r =>
      match allLags env rest r.st with
      | .error e => .error e
      | .ok s => .ok ⟨s.st, r.ifs ++ s.ifs, r.errs + s.errs, false⟩

/-! ### Member links -/

/-- The interface of a node on a member link: the parent is the index of the LAG link, and later the number of the LAG
interface, `netsim/modules/lag.py:167`, `465-467`. -/
structure MemberIf where
  name : String
  parent : Int
deriving DecidableEq, Repr

/-- Change parents for one LAG interface (index of the LAG link, number of the LAG interface):
`netsim/modules/lag.py:464-467`. -/
def reparent (ms : List MemberIf) (x : Int × Int) : List MemberIf :=
  ms.map (fun m => if m.parent = x.1 then { m with parent := x.2 } else m)

/-- The loop over the interfaces of a node: `netsim/modules/lag.py:449-467`. -/
def reparentAll (lags : List (Int × Int)) (ms : List MemberIf) : List MemberIf := lags.foldl reparent ms

/-! ### MLAG peers -/

/-- `mlag_pairs[first_pair[0]] = first_pair[1]` and vice versa: `netsim/modules/lag.py:271-272`. -/
def addPair (pairs : List (String × String)) (p : String × String) : List (String × String) :=
  let set (l : List (String × String)) (k v : String) : List (String × String) := (k, v) :: l.filter (fun x => x.1 != k)
  set (set pairs p.1 p.2) p.2 p.1

/-- All peer links: `netsim/modules/lag.py:408-411`. -/
def mlagPairs (links : List (String × String)) : List (String × String) := links.foldl addPair []

/-- `features.lag.mlag.peer.ip`: `netsim/modules/lag.py:321-336`. -/
inductive PeerIp
  | linklocal
  | loopback
  | net (n : Net)

/-- `features.lag.mlag.peer`: `netsim/modules/lag.py:318-350`. -/
structure MlagFeatures where
  ip : Option PeerIp
  backup : Bool
  mac : Option Nat

/-- A node: identifier, addresses used by MLAG peers, MAC address set by the user, `netsim/modules/lag.py:316-350`. -/
structure MlagNode where
  id : Int
  loopback : Option Nat
  backup : Option Nat
  mac : Option Nat

/-- The address of the peer: `netsim/modules/lag.py:321-336`. -/
inductive PeerVal
  | linklocal
  | addr (a : Nat)
deriving DecidableEq, Repr

/-- MLAG data of a node: `netsim/modules/lag.py:320-350`. -/
structure MlagData where
  peer : Option PeerVal
  self : Option (Nat × Nat)
  backup : Option Nat
  mac : Option Nat
  errs : Nat
deriving DecidableEq, Repr

/-- The address of the peer and own address: `netsim/modules/lag.py:321-336`; `none` is an exception. -/
def mlagAddr (f : MlagFeatures) (node peer : MlagNode) : Option (Option PeerVal × Option (Nat × Nat) × Nat) :=
  match f.ip with
  | none => some (none, none, 0)
  | some .linklocal => some (some .linklocal, none, 0)
  | some .loopback =>
    match peer.loopback with
    | some a => some (some (.addr a), none, 0)
    | none => some (none, none, 1)
  | some (.net n) =>
    let id : Int := if node.id < peer.id then 0 else 1
    match n.nth? (1 - id), n.nth? id with
    | some p, some s => some (some (.addr p), some (s, n.plen), 0)
    | _, _ => none

/-- The virtual MAC address: `netsim/modules/lag.py:347-350`; a MAC address has 48 bits. -/
def mlagMac (f : MlagFeatures) (node : MlagNode) (group : Nat) : Option Nat :=
  match node.mac with
  | some m => some m
  | none => f.mac.map (fun m => m + group % 65536)

/-- `populate_mlag_peer`, `netsim/modules/lag.py:316-350`. -/
def mlagPeer (f : MlagFeatures) (node peer : MlagNode) (group : Nat) : Option MlagData :=
  match mlagAddr f node peer with
  | none => none
  | some (p, s, e) =>
    some { peer := p
           self := s
           backup := if f.backup then peer.backup else none
           mac := mlagMac f node group
           errs := e + (if f.backup && peer.backup.isNone then 1 else 0) }

end Netlab
