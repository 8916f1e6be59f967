/-!
# BFD state of routing protocols (`netsim/modules/bfd.py`)
-/

namespace Netlab

/-- A `proto.bfd` attribute (`netsim/modules/isis.yml:18-21`, `netsim/modules/ospf.yml:15-20`): a Boolean or
a dictionary with address families.  The `strict` settings of OSPF are not modelled. -/
inductive BfdVal where
  | flag (b : Bool)
  | fams (v4 v6 : Option Bool)
  deriving DecidableEq, Repr

/-- Python truth value of the attribute (`netsim/modules/bfd.py:23`) -/
def BfdVal.truthy : BfdVal → Bool
  | .flag b => b
  | .fams v4 v6 => v4.isSome || v6.isSome

/-- An interface (`netsim/modules/bfd.py:25-43`): `off` = `l[proto] is False`, `params` = the protocol
dictionary has parameters other than `bfd`, `bfd` = truth value of the interface `bfd` attribute,
`proto` = `l[proto].bfd`, `v4`/`v6` = interface address families. -/
structure BfdIntf where
  off : Bool
  params : Bool
  present : Bool
  bfd : Option Bool
  proto : Option BfdVal
  v4 : Bool
  v6 : Bool
  deriving DecidableEq, Repr

/-- A node (`netsim/modules/bfd.py:15-22`): `hasModule` = the `bfd` module is enabled, `proto` = `node[proto].bfd`,
`v4`/`v6` = address families of the protocol -/
structure BfdNode where
  hasModule : Bool
  proto : Option BfdVal
  v4 : Bool
  v6 : Bool
  intfs : List BfdIntf
  deriving DecidableEq, Repr

/-- `netsim/modules/bfd.py:36-37,79-80`: `disable_bfd` -/
def bfdDisabled (bfd : Option Bool) (p : BfdVal) : Bool :=
  bfd == some false || !p.truthy

/-- `netsim/modules/bfd.py:25-43`: one iteration of the loop; `nb` is the node value -/
def bfdIntf (nb : Bool) (l : BfdIntf) : BfdIntf :=
  if l.off then l
  else
    let p := l.proto.getD (.flag nb)
    let q := if bfdDisabled l.bfd p then none else some p
    { l with
      proto := q
      present := l.params || q.isSome }

/-- `netsim/modules/bfd.py:15-46` (`bfd_link_state`) -/
def bfdLinkState (n : BfdNode) : BfdNode :=
  match n.proto with
  | none => n
  | some v =>
    let nb := n.hasModule && v.truthy
    { n with
      proto := if nb then some (.flag true) else none
      intfs := n.intfs.map (bfdIntf nb) }

/-- `netsim/modules/bfd.py:88-91`: remove an address family not enabled on the interface -/
def bfdTrim (v4 v6 : Bool) (a b : Option Bool) : BfdVal :=
  .fams (if v4 then a else none) (if v6 then b else none)

/-- `netsim/modules/bfd.py:82-93`: replace a Boolean with the node value, clean up address families -/
def bfdAf (v4 v6 : Bool) (a b : Option Bool) : BfdVal → Option BfdVal
  | .flag _ =>
    if (bfdTrim v4 v6 a b).truthy then some (bfdTrim v4 v6 a b) else none
  | .fams x y =>
    if (bfdTrim v4 v6 x y).truthy then some (bfdTrim v4 v6 x y) else none

/-- `netsim/modules/bfd.py:68-96`: one iteration of the loop; `a` and `b` are the node values for IPv4 and
IPv6 -/
def bfdIntfAf (a b : Option Bool) (l : BfdIntf) : BfdIntf :=
  if l.off then l
  else
    let p := l.proto.getD (.fams a b)
    let q := if bfdDisabled l.bfd p then none else bfdAf l.v4 l.v6 a b p
    { l with
      proto := q
      present := l.params || q.isSome }

/-- `netsim/modules/bfd.py:54-66`: the per-address-family node settings -/
def bfdNodeAf (n : BfdNode) (v : BfdVal) : Option Bool × Option Bool :=
  if !n.hasModule then (none, none)
  else match v with
    | .flag true => (if n.v4 then some true else none, if n.v6 then some true else none)
    | .flag false => (none, none)
    | .fams a b => (a, b)

/-- `netsim/modules/bfd.py:48-99` (`multiprotocol_bfd_link_state`).  Assigning a dictionary stores a copy
(python-box). -/
def multiprotocolBfd (n : BfdNode) : BfdNode :=
  match n.proto with
  | none => n
  | some v =>
    let af := bfdNodeAf n v
    { n with
      proto := if (BfdVal.fams af.1 af.2).truthy then some (.fams af.1 af.2) else none
      intfs := n.intfs.map (bfdIntfAf af.1 af.2) }

end Netlab
