import Verif.Model.Asn
import Verif.Model.Nodeset
/-!
# Network data types (`netsim/data/types.py:527-895`)

Strings are ASCII strings.  The parser of IPv4 addresses in the Python library is modelled; parsers of IPv6 addresses and prefixes, IPv4 network masks and MAC
addresses are parameters.  A function returns the value stored after the validation, `none` is a validation error.
-/

namespace Netlab

/-- Decimal digits of an octet: the value (`ipaddress.IPv4Address`, called in `netsim/data/types.py:699`) -/
def v4Value (l : List Char) : Nat := l.foldl (fun n c => 10 * n + (c.toNat - '0'.toNat)) 0

/-- An octet of an IPv4 address (`ipaddress.IPv4Address`, called in `netsim/data/types.py:699`): one to three digits without leading zeros -/
def v4Octet (l : List Char) : Option Nat :=
  if l.isEmpty || !l.all Char.isDigit || l.length > 3 || (l.length > 1 && l.head? == some '0') then none
  else if v4Value l > 255 then none else some (v4Value l)

/-- `ipaddress.IPv4Address(text)` (called in `netsim/data/types.py:699`, `netsim/data/types.py:837`, `netsim/modules/vrf.py:78`) -/
def v4Chars (l : List Char) : Option Nat :=
  match (splitOnChar '.' l).mapM v4Octet with
  | some [a, b, c, d] => some (((a * 256 + b) * 256 + c) * 256 + d)
  | _ => none

/-- `ipaddress.IPv4Address(text)` on Lean strings (`netsim/data/types.py:699`) -/
def v4Addr (s : String) : Option Nat := v4Chars s.toList

/-- `str(ipaddress.IPv4Address(value))` for an integer (`netsim/data/types.py:719-720`) -/
def v4Text (n : Nat) : String :=
  (n / 256 / 256 / 256).repr ++ "." ++ (n / 256 / 256 % 256).repr ++ "." ++ (n / 256 % 256).repr ++ "." ++ (n % 256).repr

/-- The prefix length of `ipaddress.IPv4Network` (called in `netsim/data/types.py:706`): `mask` parses network masks. -/
def v4Plen (mask : String → Option Nat) (m : List Char) : Option Nat :=
  if !m.isEmpty && m.all Char.isDigit then (if v4Value m ≤ 32 then some (v4Value m) else none) else mask (String.ofList m)

/-- `ipaddress.IPv4Network(text,strict)` (called in `netsim/data/types.py:706`): is the text accepted? -/
def v4Net (mask : String → Option Nat) (s : String) (strict : Bool) : Bool :=
  match splitOnChar '/' s.toList with
  | [a] => (v4Chars a).isSome
  | [a, m] =>
    match v4Chars a, v4Plen mask m with
    | some n, some p => !strict || n % 2 ^ (32 - p) == 0
    | _, _ => false
  | _ => false

/-- Named prefixes in `netsim/data/types.py:688-696` and `netsim/data/types.py:722-724`: `pfx` returns an evaluated named prefix. -/
def taNamed (pfx : String → Option Val) (s : String) : Option Val :=
  match pfx s with
  | some (.dict d) => d.lookup "ipv4"
  | _ => none

/-- `netsim/data/types.py:663-670` (`check_int_value`) -/
def taInt (xform : Option (Nat → String)) (i : Int) : Option Val :=
  if i < 0 || i > 2 ^ 32 - 1 then none
  else match xform with
    | some f => some (.str (f i.toNat))
    | none => some (.int i)

/-- A string in `netsim/data/types.py:698-711` -/
def taStr (addr : String → Bool) (net : String → Bool → Bool) (use s : String) : Option Val :=
  if use = "id" ∨ use = "address" ∨ (use = "interface" ∧ '/' ∉ s.toList) then (if addr s then some (.str s) else none)
  else if net s (!(use = "interface" ∨ use = "host_prefix")) then some (.str s) else none

/-- `netsim/data/types.py:653-711` (`common_addr_parse`): `v4` is true for IPv4, `named` is the function finding named prefixes. -/
def taCommon (v4 : Bool) (addr : String → Bool) (net : String → Bool → Bool) (xint : Option (Nat → String)) (named : String → Option Val) (use : String)
    (v : Val) : Option Val :=
  match v with
  | .bool b => if use = "interface" ∨ use = "subnet_prefix" then some (.bool b) else none
  | .int i => if use = "id" ∧ v4 = true then taInt xint i else if use ≠ "interface" then none else taInt none i
  | .str s =>
    match named s with
    | some w => some w
    | none => taStr addr net use s
  | _ => none

/-- `netsim/data/types.py:717-731` (`must_be_ipv4`): `pfx` are evaluated named prefixes of the topology. -/
def taIpv4 (mask : String → Option Nat) (pfx : String → Option Val) (use : String) (named : Bool) (v : Val) : Option Val :=
  taCommon true (fun s => (v4Addr s).isSome) (v4Net mask) (some v4Text) (if named then taNamed pfx else fun _ => none) use v

/-- `netsim/data/types.py:737-741` (`must_be_ipv6`) -/
def taIpv6 (addr : String → Bool) (net : String → Bool → Bool) (use : String) (v : Val) : Option Val := taCommon false addr net none (fun _ => none) use v

/-- `netsim/data/types.py:744-763` (`must_be_prefix_str`): `net6` recognizes IPv6 prefixes and `pfx` are evaluated named prefixes (`check_named_prefix` and
`transform_named_prefix`, `netsim/data/types.py:612-624`). -/
def taPrefixStr (mask : String → Option Nat) (net6 : String → Bool) (pfx : String → Option Val) (v : Val) : Option Val :=
  match v with
  | .str s =>
    if v4Net mask s true then some (.dict [("ipv4", v)])
    else if net6 s then some (.dict [("ipv6", v)])
    else pfx s
  | _ => none

/-- `netsim/data/types.py:527-545` (`must_be_bool`) with `transform_to_bool` (`netsim/data/types.py:529-536`) -/
def taBool (v : Val) : Option Val :=
  match v with
  | .str s => if s = "True" ∨ s = "true" then some (.bool true) else if s = "False" ∨ s = "false" then some (.bool false) else none
  | .bool b => some (.bool b)
  | _ => none

/-- `netsim/data/types.py:548-550` (`must_be_bool_false`) -/
def taBoolFalse (v : Val) : Option Val :=
  match v with
  | .bool false => some v
  | _ => none

/-- Strings that must be in a list: `must_be_named_pfx` (`netsim/data/types.py:766-774`), `must_be_addr_pool` (`netsim/data/types.py:777-786`),
`must_be_device` (`netsim/data/types.py:846-862`), `must_be_node_id` (`netsim/data/types.py:865-881`) and `must_be_r_proto`
(`netsim/data/types.py:884-895`) -/
def taMember (l : List String) (v : Val) : Option Val :=
  match v with
  | .str s => if l.contains s then some v else none
  | _ => none

/-- `netsim/data/types.py:789-801` (`must_be_mac`): `eui` parses MAC addresses. -/
def taMac (eui : String → Option Nat) (v : Val) : Option Val :=
  match v with
  | .str s =>
    match eui s with
    | some n => if n / 2 ^ 40 % 2 = 1 then none else some v
    | none => none
  | _ => none

/-- A character in `[0-9a-f.]` (`netsim/data/types.py:808`) -/
def taNetChar (c : Char) : Bool := ('0' ≤ c && c ≤ '9') || ('a' ≤ c && c ≤ 'f') || c == '.'

/-- `netsim/data/types.py:804-814` (`must_be_net`) -/
def taNet (v : Val) : Option Val :=
  match v with
  | .str s =>
    if s.toList.isEmpty || !s.toList.all taNetChar then none
    else if (s.toList.filter (· ≠ '.')).length % 2 ≠ 0 then none else some v
  | _ => none

/-- `netsim/data/types.py:817-842` (`must_be_rd`) -/
def taRd (v : Val) : Option Val :=
  match v with
  | .int _ => some v
  | .bool _ => some v
  | .null => some v
  | .str s =>
    match splitOnChar ':' s.toList with
    | [t, i] =>
      if (pyIntChars i).isNone then none
      else if (pyIntChars t).isSome then some v
      else if (v4Chars t).isSome then some v else none
    | _ => none
  | _ => none

/-- `netsim/modules/vrf.py:68-81` (`parse_rdrt_value`): an integer or an IPv4 address, and an integer -/
def rdrtParse (s : String) : Option ((Int ⊕ String) × Int) :=
  match splitOnChar ':' s.toList with
  | [t, i] =>
    match pyIntChars t, pyIntChars i with
    | some a, some b => some (.inl a, b)
    | _, _ =>
      if (v4Chars t).isSome then (pyIntChars i).map (fun b => (.inr (String.ofList t), b)) else none
  | _ => none

end Netlab
