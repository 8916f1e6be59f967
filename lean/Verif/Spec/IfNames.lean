import Verif.Model.IfNames
/-!
# Specification: interface names
-/

namespace Netlab.Spec

open Netlab

/-- The interface is identified by its number; VLAN interfaces by VLAN or bridge group, subinterfaces by the parent interface and the
number or VLAN. -/
def SameIntf : IfKind → IfKind → Prop
  | .phys i, .phys j => i = j
  | .loop i, .loop j => i = j
  | .tunnel i, .tunnel j => i = j
  | .lag i, .lag j => i = j
  | .svi v b, .svi v' b' => v = v' ∨ b = b'
  | .subif l p s v, .subif l' p' s' v' => l = l' ∧ p = p' ∧ (s = s' ∨ v = v')
  | _, _ => False

/-- The name is a literal text followed by something. -/
def litHead : List FmtSeg → List Char × List FmtSeg
  | .lit c :: r => (c :: (litHead r).1, (litHead r).2)
  | l => ([], l)

/-- Literal text at the beginning of a template. -/
def litPrefix (f : String) : List Char :=
  match fmtSplit none f.toList with
  | some l => (litHead l).1
  | none => []

/-- No text begins with both. -/
def apart (a b : List Char) : Bool := !(a.isPrefixOf b) && !(b.isPrefixOf a)

/-- The value of the expression is a different number for every index starting with `off`. -/
def opInjective (off : Nat) : FmtOp → Bool
  | .id => true
  | .orEmpty => true
  | .add _ => true
  | .sub k => decide (k ≤ off)
  | .mul k => decide (k ≠ 0)
  | _ => false

/-- The template gives different names: one expression, or quotient and remainder separated with something that is not a digit. -/
def segsInjective (v : String) (off : Nat) (l : List FmtSeg) : Bool :=
  match litHead l with
  | (_, .var x op :: r) =>
    x == v &&
    match litHead r with
    | (_, []) => opInjective off op
    | (c :: _, .var y (.mod k) :: r2) => y == v && op == .div k && decide (k ≠ 0) && !c.isDigit && (litHead r2).2.isEmpty
    | _ => false
  | _ => false

/-- The same for the text of the template; the name can use any of the variables. -/
def tmplInjective (vs : List String) (off : Nat) (f : Option String) : Bool :=
  match f with
  | none => true
  | some t =>
    match fmtSplit none t.toList with
    | some l => vs.any (fun v => segsInjective v off l)
    | none => false

/-- Numbers in the names are never negative, and the character is not a part of the template. -/
def charFree (c : Char) (f : Option String) : Bool :=
  match f with
  | none => true
  | some t =>
    match fmtSplit none t.toList with
    | some l => l.all (fun s => match s with | .lit x => x != c | .var _ (.sub _) => false | .var _ _ => true)
    | none => false

/-- The subinterface template is the name of the parent interface, a separator and a number; the last character of the separator is
not used in names of parent interfaces. -/
def subOk (d : NameDev) : Bool :=
  match d.subif with
  | none => true
  | some t =>
    match fmtSplit none t.toList with
    | some (.var "ifname" .id :: r) =>
      match litHead r with
      | (s, [.var x .id]) =>
        (x == "subif_index" || x == "vlan.access_id") &&
        match s.getLast? with
        | some c => !c.isDigit && charFree c (some d.phys) && charFree c d.lag
        | none => false
      | _ => false
    | _ => false

/-- Name templates of a device. -/
def NameDev.templates (d : NameDev) : List (Option String) := [some d.phys, d.loop, d.tunnel, d.lag, d.svi]

/-- The beginning of names of different types of interfaces is different. -/
def prefixesOk (d : NameDev) : Bool :=
  (List.range 5).all (fun i => (List.range 5).all (fun j => i == j ||
    match (NameDev.templates d)[i]?, (NameDev.templates d)[j]? with
    | some (some a), some (some b) => apart (litPrefix a) (litPrefix b)
    | _, _ => true))

/-- A simple check of device data: templates of different interface types begin with different texts, every template has a single
number, and subinterfaces have a separator that's not used in other names. -/
def namesOk (d : NameDev) : Bool :=
  tmplInjective ["ifindex"] d.offset (some d.phys) && tmplInjective ["ifindex"] 0 d.loop && tmplInjective ["ifindex"] 0 d.tunnel &&
  tmplInjective ["lag.ifindex"] 0 d.lag && tmplInjective ["vlan", "bvi"] 0 d.svi && prefixesOk d && subOk d

/-- The management interface has a name that can't be the name of another interface, or the name of the physical interface before the
first one used in the lab. -/
def mgmtOk (d : NameDev) : Bool :=
  match d.mgmt with
  | none => decide (1 ≤ d.offset)
  | some m =>
    (decide (1 ≤ d.offset) && evalFormat d.phys [("ifindex", .num (d.offset - 1))] == some m) ||
    (NameDev.templates d).all (fun f => match f with | none => true | some t => apart m.toList (litPrefix t))

/-- Physical interfaces used in the lab, and their subinterfaces. -/
def UsableIf (d : NameDev) : IfKind → Prop
  | .phys i => d.offset ≤ i
  | .subif false p _ _ => d.offset ≤ p
  | _ => True

/-- The device has a name template for the interface. -/
def Supported (d : NameDev) : IfKind → Prop
  | .phys _ => True
  | .loop _ => d.loop ≠ none
  | .tunnel _ => d.tunnel ≠ none
  | .lag _ => d.lag ≠ none
  | .svi _ _ => d.svi ≠ none
  | .subif l _ _ _ => d.subif ≠ none ∧ (l = true → d.lag ≠ none)

/-- Data used to create interfaces of a device (C10). -/
def nodeDevOf (d : NameDev) (lo : Option Int) (mtu : Option Int) (sys : Bool) : NodeDev :=
  { ifOffset := some d.offset
    loOffset := lo
    ifFormat := some (fun i => (ifName d (.phys i.toNat)).getD "")
    virtFormat := fun t =>
      if t = "loopback" then d.loop.map (fun _ i => (ifName d (.loop i.toNat)).getD "")
      else if t = "tunnel" then d.tunnel.map (fun _ i => (ifName d (.tunnel i.toNat)).getD "")
      else none
    mtu := mtu
    sysMtu := sys }

/-- Container interfaces: one number in the name, and the name is not `eth0`. -/
def clabOk (d : NameDev) : Bool :=
  match fmtSplit none (d.clab.getD d.phys).toList with
  | none => false
  | some l =>
    segsInjective "ifindex" d.offset l &&
    (apart (litHead l).1 "eth0".toList ||
      match l with
      | [.lit 'e', .lit 't', .var _ .id] => true
      | [.lit 'e', .lit 't', .lit 'h', .var _ .id] => decide (1 ≤ d.offset)
      | [.lit 'e', .lit 't', .lit 'h', .var _ (.add k)] => decide (1 ≤ d.offset + k)
      | [.lit 'e', .lit 't', .lit 'h', .var _ (.sub k)] => decide (k + 1 ≤ d.offset)
      | _ => false)

end Netlab.Spec
