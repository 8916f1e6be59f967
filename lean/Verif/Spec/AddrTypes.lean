import Verif.Model.AddrTypes
/-!
# Specification of network data types
-/

namespace Netlab.Spec

/-- The canonical text of an IPv4 address -/
def DottedQuad (s : String) (n : Nat) : Prop :=
  ∃ a b c d : Nat, a < 256 ∧ b < 256 ∧ c < 256 ∧ d < 256 ∧ s = a.repr ++ "." ++ b.repr ++ "." ++ c.repr ++ "." ++ d.repr ∧
    n = a * 2 ^ 24 + b * 2 ^ 16 + c * 2 ^ 8 + d

/-- A text contains a slash. -/
def HasSlash (s : String) : Prop := '/' ∈ s.toList

/-- `a/m` where `a` is an IPv4 address and `m` is a prefix length or a mask -/
def Cidr (plen : String → Option Nat) (s : String) (n p : Nat) : Prop := ∃ a m, s = a ++ "/" ++ m ∧ ¬ HasSlash m ∧ DottedQuad a n ∧ plen m = some p

/-- A 32-bit number -/
def Is32 (i : Int) : Prop := 0 ≤ i ∧ i < 2 ^ 32

/-- Valid values of IPv4 attributes.  An address without a prefix length is also a prefix. -/
inductive Ipv4Ok (plen : String → Option Nat) (use : String) : Val → Prop
  | bool (b) : use = "interface" ∨ use = "subnet_prefix" → Ipv4Ok plen use (.bool b)
  | int (i) : Is32 i → use = "interface" ∨ use = "id" → Ipv4Ok plen use (.int i)
  | addr (s n) : DottedQuad s n → Ipv4Ok plen use (.str s)
  | host (s n p) : Cidr plen s n p → use = "interface" ∨ use = "host_prefix" → Ipv4Ok plen use (.str s)
  | net (s n p) : Cidr plen s n p → n % 2 ^ (32 - p) = 0 → use = "prefix" ∨ use = "subnet_prefix" → Ipv4Ok plen use (.str s)

/-- Uses of addresses -/
def IsUse (use : String) : Prop := use ∈ ["address", "prefix", "host_prefix", "interface", "subnet_prefix", "id"]

end Netlab.Spec
