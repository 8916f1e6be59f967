import Verif.Model.TopoUtil
import Mathlib.Data.List.Forall2
import Verif.Spec.PrefixCheck

namespace Netlab.Spec

open Netlab

/-- A letter, a digit or an underscore -/
def IdentifierChar (c : Char) : Prop := c.isAlphanum = true ∨ c = '_'

/-- How an item of a prefix is parsed: the value of an address family is a Boolean value or something that can be parsed as an IP prefix, and other
attributes are copied. -/
def ItemParsed (o : TuOracle N) (x : String × Val) (y : String × TuPfx N) : Prop :=
  y.1 = x.1 ∧
    (((x.1 = "ipv4" ∨ x.1 = "ipv6") ∧ ((∃ b, x.2 = .bool b ∧ y.2 = .raw (.bool b)) ∨ ((∀ b, x.2 ≠ .bool b) ∧ ∃ n, o.net x.2 = some n ∧ y.2 = .net n))) ∨
      (x.1 ≠ "ipv4" ∧ x.1 ≠ "ipv6" ∧ y.2 = .raw x.2))

/-- An address family with a value that is neither a Boolean value nor an IP prefix -/
def BadItem (o : TuOracle N) (x : String × Val) : Prop := (x.1 = "ipv4" ∨ x.1 = "ipv6") ∧ (∀ b, x.2 ≠ .bool b) ∧ o.net x.2 = none

/-- The objects defined in groups (and not in group settings), in the order of groups -/
def GroupObjects (groups : List (String × Option (List (String × Option TuObj)))) : List (String × Option TuObj) :=
  ((groups.filter (fun g => g.1.toList.head? != some '_')).map (fun g => g.2.getD [])).flatten

/-- The value of an attribute of an object; an object may be missing, or have no value. -/
def AttrValue (t : List (String × Option TuObj)) (name attr : String) (v : Val) : Prop :=
  ∃ obj, t.lookup name = some (some obj) ∧ obj.lookup attr = some v

/-- The first value of an attribute of an object in a list of definitions -/
def FirstDefined (items : List (String × Option TuObj)) (name attr : String) (v : Val) : Prop :=
  ∃ a obj b, items = a ++ (name, some obj) :: b ∧ obj.lookup attr = some v ∧ ∀ x ∈ a, ∀ o, x = (name, some o) → o.lookup attr = none

end Netlab.Spec
