import Verif.Model.IgpAdj

namespace Netlab.Spec

open Netlab

/-- System defaults: role and type of a link, and routing protocol attributes, are copied from links to interfaces. -/
structure AdjDefaults (e : AdjEnv) : Prop where
  role : "role" ∈ e.linkAttrs ++ e.internal ∧ "role" ∉ e.noProp ∧ "role" ∉ e.noMod
  type : "type" ∈ e.linkAttrs ++ e.internal ∧ "type" ∉ e.noProp ∧ "type" ∉ e.noMod
  proto : e.proto ∉ e.noMod

/-- The node of the interface runs the routing protocol, and the interface has no own role, type, or routing protocol attributes. -/
structure PlainEnd (e : AdjEnv) (x : AdjEnd) : Prop where
  runs : e.proto ∈ (e.nodes x.node).modules
  role : x.data.lookup "role" = none
  type : x.data.lookup "type" = none
  proto : x.data.lookup e.proto = none

/-- The interface has an IP address (`True` is an unnumbered interface). -/
def HasAddress (x : AdjEnd) : Prop := ∃ f, (f = "ipv4" ∨ f = "ipv6") ∧ x.data.lookup f ≠ none

/-- The node has no default value for an attribute of routing protocol interfaces. -/
def NoNodeDefault (e : AdjEnv) (n k : String) : Prop := k ∉ e.nodeCopy ∨ (e.nodes n).igp.lookup k = none

/-- The routing protocol attributes of the link: none, or a dictionary -/
def LinkIgp (e : AdjEnv) (link : List (String × Val)) (d : List (String × Val)) : Prop :=
  link.lookup e.proto = some (.dict d) ∨ (link.lookup e.proto = none ∧ d = [])

/-- The value of a routing protocol attribute on an interface -/
def protoAttr (e : AdjEnv) (link : List (String × Val)) (x : AdjEnd) (k : String) : Option Val :=
  match adjProto e link x with
  | some (.dict d) => d.lookup k
  | _ => none

end Netlab.Spec
