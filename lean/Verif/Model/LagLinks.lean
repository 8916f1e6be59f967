import Verif.Model.Lag
/-!
# Member links of LAGs and MLAG peer links (`netsim/modules/lag.py`)

Links with the `lag` attribute are turned into member links and peer links before the links of the lab are transformed.

Simplifications:

* a link is reduced to its nodes, and to the data describing the relationship between member links and their LAG;
* member links were already parsed (`adjust_link_object`): a member has a list of nodes and `lag` attributes;
* device types and MLAG support (`check_mlag_support`) are parameters;
* `linkindex` of a link is its position in the list of links (starting with one).
-/

namespace Netlab

/-- A member link written by the user: nodes, and (when it has the `lag` attribute) whether it has `lag.ifindex` and the
number of other LAG attributes, `netsim/modules/lag.py:88-106`. -/
structure RawMember where
  nodes : List String
  lag : Option (Bool × Nat)
deriving DecidableEq, Repr

/-- `lag.mlag.peergroup`: missing (or false), `true` or a number, `netsim/modules/lag.py:303-306`. -/
inductive PeerReq
  | no
  | auto
  | num (n : Int)
deriving DecidableEq, Repr

/-- The `lag` attribute of a link; `members` is `none` when it is missing or when it is not a list,
`netsim/modules/lag.py:293-303`. -/
structure RawLag where
  members : Option (List RawMember)
  peer : PeerReq
deriving DecidableEq, Repr

/-- A link of the topology: a link without the `lag` attribute (`plain`, with something that identifies it), a link with it
that was not processed yet, the virtual LAG link, member link (with the index of its LAG), MLAG peer link, additional MLAG
peer link (with the index of the first one), and a peer link without members: `netsim/modules/lag.py:154-171`,
`258-286`, `303-311`. -/
inductive LagOut
  | plain (x : Nat)
  | raw (r : RawLag)
  | virtual (ms : List (String × String))
  | member (parent : Nat) (e : String × String)
  | peer (group : Int) (e : String × String)
  | peerMore (parent : Nat) (e : String × String)
  | peerEmpty (group : Int)
deriving DecidableEq, Repr

/-- LAG attributes that are not allowed on a member link: `netsim/modules/lag.py:90-92` -/
def badLagAttrs (peer : Bool) : Option (Bool × Nat) → Bool
  | some (_, other) => peer || decide (0 < other)
  | none => false

/-- One member link: `none` is an error, `netsim/modules/lag.py:90-106` -/
def normMember (peer : Bool) (m : RawMember) : Option (String × String) :=
  if badLagAttrs peer m.lag then none
  else
    match m.nodes with
    | [a, b] => if a == b then none else some (a, b)
    | _ => none

/-- `normalized_members`, `netsim/modules/lag.py:85-108`: the members and the number of errors. -/
def normMembers (peer : Bool) : List RawMember → List (String × String) × Nat
  | [] => ([], 0)
  | m :: rest =>
    match normMember peer m with
    | none => ([], 1)
    | some e =>
      match normMembers peer rest with
      | (_, n + 1) => ([], n + 1)
      | (es, 0) => (e :: es, 0)

/-- The state: links, MLAG peers, peer link identifiers and the number of errors, `netsim/modules/lag.py:405-411`. -/
structure LagLinksSt where
  links : List LagOut
  pairs : List (String × String)
  ids : IdVar
  errs : Nat
deriving DecidableEq, Repr

/-- Device types and MLAG support: `netsim/modules/lag.py:263-270`. -/
structure PeerEnv where
  device : String → String
  mlagOk : String → Bool

/-- `create_lag_member_links`, `netsim/modules/lag.py:154-171`.  `k` is the index of the LAG link.  The second value is
false when the processing of LAG links stops. -/
def lagMemberLinks (k : Nat) (ms : List RawMember) (st : LagLinksSt) : LagLinksSt × Bool :=
  match normMembers false ms with
  | ([], e) => ({ st with errs := st.errs + e }, false)
  | (es, e) =>
    ({ st with links := st.links.set (k - 1) (.virtual es) ++ es.map (LagOut.member k), errs := st.errs + e }, true)

/-- Additional links between MLAG peers: `netsim/modules/lag.py:275-282` and `check_same_pair`,
`netsim/modules/lag.py:245-252`. -/
def morePeerLinks (k : Nat) (first : String × String) : List (String × String) → LagLinksSt → LagLinksSt × Bool
  | [], st => (st, true)
  | e :: rest, st =>
    if [e.1, e.2].all (fun n => n == first.1 || n == first.2) then
      morePeerLinks k first rest { st with links := st.links ++ [.peerMore k e] }
    else ({ st with errs := st.errs + 1 }, false)

/-- `create_peer_links`, `netsim/modules/lag.py:239-286`. -/
def peerLinks (env : PeerEnv) (k : Nat) (group : Int) (ms : List RawMember) (st : LagLinksSt) : LagLinksSt × Bool :=
  match normMembers true ms with
  | ([], e) => ({ st with links := st.links.set (k - 1) (.peerEmpty group), errs := st.errs + e }, true)
  | (first :: more, _) =>
    let st := { st with links := st.links.set (k - 1) (.peer group first) }
    if env.device first.1 != env.device first.2 then ({ st with errs := st.errs + 1 }, false)
    else if !(env.mlagOk first.1 && env.mlagOk first.2) then ({ st with errs := st.errs + 1 }, false)
    else morePeerLinks k first more { st with pairs := addPair st.pairs first }

/-- `process_lag_link`, `netsim/modules/lag.py:293-311`. -/
def lagLink (env : PeerEnv) (k : Nat) (r : RawLag) (st : LagLinksSt) : Except Fatal (LagLinksSt × Bool) :=
  match r.members with
  | none => .ok ({ st with errs := st.errs + 1 }, false)
  | some ms =>
    match r.peer with
    | .no => .ok (lagMemberLinks k ms st)
    | .num n => .ok (peerLinks env k n ms st)
    | .auto =>
      match st.ids.getNext with
      | .error e => .error e
      | .ok (g, ids) => .ok (peerLinks env k g ms { st with ids := ids })

/-- The loop over links: `netsim/modules/lag.py:408-411`.  `k` is the index of the first of the remaining links. -/
def lagLinksLoop (env : PeerEnv) : Nat → List LagOut → LagLinksSt → Except Fatal (LagLinksSt × Bool)
  | _, [], st => .ok (st, true)
  | k, .raw r :: rest, st =>
    match lagLink env k r st with
    | .error e => .error e
    | .ok (st, false) => .ok (st, false)
    | .ok (st, true) => lagLinksLoop env (k + 1) rest st
  | k, _ :: rest, st => lagLinksLoop env (k + 1) rest st

/-- Peer link identifiers set by the user: `netsim/modules/lag.py:33-34`. -/
def userGroups (links : List LagOut) : List Int :=
  links.filterMap (fun l => match l with
    | .raw r => match r.peer with
      | .num n => some n
      | _ => none
    | _ => none)

/-- `populate_peerlink_id_set`, `netsim/modules/lag.py:30-36`. -/
def peerIds (links : List LagOut) : IdVar :=
  ((({} : IdVar).create).extend ((userGroups links).map IdVal.i)).setCounter 1 256

/-- The first part of `module_pre_transform`: `netsim/modules/lag.py:397-411`. -/
def lagLinks (env : PeerEnv) (links : List LagOut) : Except Fatal (LagLinksSt × Bool) :=
  lagLinksLoop env 1 links ⟨links, [], peerIds links, 0⟩

end Netlab
