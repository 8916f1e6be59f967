import Verif.Model.Links
/-!
# Interface names (`netsim/utils/strings.py`, `netsim/augment/links.py`, `netsim/modules/vlan.py`, device data)
-/

namespace Netlab

/-- What follows a variable in an expression used in a name template: nothing, arithmetic with a constant, or the
`x if x else ""` form (`netsim/devices/frr.yml:5`, `netsim/devices/iol.yml:4`, `netsim/devices/sonic.yml:3`,
`netsim/devices/vmx.yml:25`, `netsim/devices/csr.yml:15`). -/
inductive FmtOp
  | id
  | orEmpty
  | add (k : Nat)
  | sub (k : Nat)
  | mul (k : Nat)
  | div (k : Nat)
  | mod (k : Nat)
deriving DecidableEq, Repr

/-- A part of a name template (`netsim/utils/strings.py:121-124`). -/
inductive FmtSeg
  | lit (c : Char)
  | var (name : String) (op : FmtOp)
deriving DecidableEq, Repr

/-- A decimal constant in an expression. Part of the Python parser used in `netsim/utils/strings.py:124`. -/
def fmtNat (l : List Char) : Option Nat :=
  if l = [] ∨ l.any (fun c => !c.isDigit) then none else some (l.foldl (fun n c => 10 * n + (c.toNat - 48)) 0)

/-- Characters of variable names (with attribute access). Part of the Python parser used in `netsim/utils/strings.py:124`. -/
def fmtIdent (c : Char) : Bool := c.isAlphanum || c == '_' || c == '.'

/-- The rest of an expression without spaces. Part of the Python parser used in `netsim/utils/strings.py:124`; expressions that do
not appear in device data are not modelled. -/
def fmtOp (v : List Char) : List Char → Option FmtOp
  | [] => some .id
  | '+' :: k => (fmtNat k).map .add
  | '-' :: k => (fmtNat k).map .sub
  | '*' :: k => (fmtNat k).map .mul
  | '/' :: '/' :: k => (fmtNat k).map .div
  | '%' :: k => (fmtNat k).map .mod
  | l => if l = "if".toList ++ v ++ "else\"\"".toList then some .orEmpty else none

/-- An expression in a template: `netsim/utils/strings.py:121-124`. -/
def fmtExpr (e : List Char) : Option FmtSeg :=
  (fmtOp (e.takeWhile fmtIdent) ((e.dropWhile fmtIdent).filter (· != ' '))).map (.var (String.ofList (e.takeWhile fmtIdent)))

/-- Split a template into literal characters and expressions in curly brackets (`netsim/utils/strings.py:121-124`): the first argument is
the expression being collected.  Doubled brackets, format specifications and escaped quotes do not appear in device data. -/
def fmtSplit : Option (List Char) → List Char → Option (List FmtSeg)
  | none, [] => some []
  | some _, [] => none
  | none, '{' :: r => fmtSplit (some []) r
  | none, c :: r => (fmtSplit none r).map (.lit c :: ·)
  | some e, '}' :: r =>
    match fmtExpr e.reverse, fmtSplit none r with
    | some s, some l => some (s :: l)
    | _, _ => none
  | some e, c :: r => fmtSplit (some (c :: e)) r

/-- Values of variables: `netsim/augment/links.py:258`, `netsim/modules/vlan.py:881-884`, `netsim/modules/vlan.py:1045-1050`. -/
inductive FmtVal
  | num (n : Nat)
  | text (s : String)
deriving DecidableEq, Repr

/-- Value of an expression on a number (`netsim/utils/strings.py:124`): Python integers, printed in decimal. -/
def fmtNum (n : Nat) : FmtOp → Option String
  | .id => some (Nat.repr n)
  | .orEmpty => some (if n = 0 then "" else Nat.repr n)
  | .add k => some (Nat.repr (n + k))
  | .sub k => some (if k ≤ n then Nat.repr (n - k) else "-" ++ Nat.repr (k - n))
  | .mul k => some (Nat.repr (n * k))
  | .div k => if k = 0 then none else some (Nat.repr (n / k))
  | .mod k => if k = 0 then none else some (Nat.repr (n % k))

/-- Value of a part of a template (`netsim/utils/strings.py:121-124`): an unknown variable is a crash. -/
def fmtSeg (data : List (String × FmtVal)) : FmtSeg → Option (List Char)
  | .lit c => some [c]
  | .var v op =>
    match data.lookup v with
    | none => none
    | some (.num n) => (fmtNum n op).map (·.toList)
    | some (.text s) => if op = .id then some s.toList else none

/-- Value of a template: `netsim/utils/strings.py:121-124`. -/
def fmtSegs (data : List (String × FmtVal)) : List FmtSeg → Option (List Char)
  | [] => some []
  | s :: r =>
    match fmtSeg data s, fmtSegs data r with
    | some a, some b => some (a ++ b)
    | _, _ => none

/-- `eval_format`, `netsim/utils/strings.py:121-124`, and `str.format` used for VLAN interfaces
(`netsim/modules/vlan.py:881,1050`): `none` is a crash. -/
def evalFormat (fmt : String) (data : List (String × FmtVal)) : Option String :=
  match fmtSplit none fmt.toList with
  | none => none
  | some l => (fmtSegs data l).map String.ofList

/-- Device data used in interface names: `interface_name`, `loopback_interface_name`, `tunnel_interface_name`, `lag_interface_name`,
`features.vlan.svi_interface_name`, `features.vlan.subif_name`, `mgmt_if`, `ifindex_offset` and the interface name of the container
(`netsim/augment/links.py:235-295`, `netsim/modules/vlan.py:861,1026`, `netsim/augment/nodes.py:102-116`). -/
structure NameDev where
  device : String
  phys : String
  loop : Option String := none
  tunnel : Option String := none
  lag : Option String := none
  svi : Option String := none
  subif : Option String := none
  mgmt : Option String := none
  offset : Nat := 1
  clab : Option String := none
deriving DecidableEq, Repr

/-- Interfaces of a node: physical, loopback and tunnel interfaces with their numbers (index without the offset of the interface type,
`netsim/augment/links.py:258,294`), LAG with `lag.ifindex`, VLAN interface with VLAN ID and bridge group
(`netsim/modules/vlan.py:881-884`), subinterface of a physical interface or LAG with its number and VLAN ID
(`netsim/modules/vlan.py:1040-1050`). -/
inductive IfKind
  | phys (i : Nat)
  | loop (i : Nat)
  | tunnel (i : Nat)
  | lag (i : Nat)
  | svi (vlan bvi : Nat)
  | subif (ofLag : Bool) (parent sub vlan : Nat)
deriving DecidableEq, Repr

/-- Name from an optional template (`netsim/augment/links.py:292-309`, `netsim/modules/vlan.py:861-867`): no template is an error. -/
def optFormat (f : Option String) (data : List (String × FmtVal)) : Option String :=
  match f with
  | none => none
  | some t => evalFormat t data

/-- Name of a physical interface or LAG: `netsim/augment/links.py:255-258` and `netsim/augment/links.py:292-295`. -/
def parentName (d : NameDev) (ofLag : Bool) (i : Nat) : Option String :=
  if ofLag then optFormat d.lag [("lag.ifindex", .num i)] else evalFormat d.phys [("ifindex", .num i)]

/-- The name of an interface: `netsim/augment/links.py:255-258` (physical), `netsim/augment/links.py:292-295` (virtual),
`netsim/modules/vlan.py:861-884` (VLAN interface), `netsim/modules/vlan.py:1026-1050` (subinterface; variables of the parent and the
subinterface that do not appear in device data are left out). -/
def ifName (d : NameDev) : IfKind → Option String
  | .phys i => parentName d false i
  | .loop i => optFormat d.loop [("ifindex", .num i)]
  | .tunnel i => optFormat d.tunnel [("ifindex", .num i)]
  | .lag i => parentName d true i
  | .svi v b => optFormat d.svi [("vlan", .num v), ("bvi", .num b)]
  | .subif l p s v =>
    match parentName d l p with
    | none => none
    | some n => optFormat d.subif [("ifname", .text n), ("subif_index", .num s), ("vlan.access_id", .num v)]

/-- Name of the management interface: `augment_mgmt_if`, `netsim/augment/nodes.py:102-116`.  `mgmt.ifname` specified in the node is not
modelled; a device without `mgmt_if` has a positive index offset. -/
def mgmtName (d : NameDev) : Option String :=
  match d.mgmt with
  | some m => some m
  | none => evalFormat d.phys [("ifindex", .num (d.offset - 1))]

/-- Name of a container interface: `netsim/augment/links.py:260-263`, used in `netsim/templates/provider/clab/clab.j2:105`. -/
def clabIfName (d : NameDev) (i : Nat) : Option String :=
  match d.clab with
  | some t => evalFormat t [("ifindex", .num i)]
  | none => parentName d false i

/-- Host-side end of a link between a container and a bridge: `netsim/templates/provider/clab/clab.j2:116-122`. -/
def vethName (multilab : Bool) (lab node : String) (id ifindex : Nat) (intf : String) : String :=
  if multilab then String.ofList (lab.toList.take 6) ++ "_" ++ Nat.repr id ++ "_" ++ Nat.repr ifindex
  else String.ofList (node.toList.take 10) ++ "_" ++ intf

/-- Interface name templates of all devices and daemons with inherited values filled in: `netsim/devices/arubacx.yml:3-8`,
`netsim/devices/asav.yml:3-5`, `netsim/devices/cat8000v.yml:3-20`, `netsim/devices/csr.yml:3-35`, `netsim/devices/cumulus.yml:3-7`,
`netsim/devices/cumulus_nvue.yml:2-7`, `netsim/devices/dellos10.yml:3-6`, `netsim/devices/eos.yml:3-7`, `netsim/devices/fortios.yml:2-5`,
`netsim/devices/frr.yml:3-7`, `netsim/devices/iol.yml:3-13`, `netsim/devices/ioll2.yml:3-11`, `netsim/devices/ios.yml:4-5`,
`netsim/devices/iosv.yml:3-4`, `netsim/devices/iosvl2.yml:3-14`, `netsim/devices/iosxr.yml:3-5`, `netsim/devices/junos.yml:4-7`,
`netsim/devices/linux.yml:2-4`, `netsim/devices/none.yml:7-10`, `netsim/devices/nxos.yml:3-5`, `netsim/devices/routeros.yml:3-5`,
`netsim/devices/routeros7.yml:3-6`, `netsim/devices/sonic.yml:3-6`, `netsim/devices/srlinux.yml:3-5`, `netsim/devices/sros.yml:3-5`,
`netsim/devices/unknown.yml:3-4`, `netsim/devices/vjunos-router.yml:3-12`, `netsim/devices/vjunos-switch.yml:3-15`,
`netsim/devices/vmx.yml:3-15`, `netsim/devices/vptx.yml:3-15`, `netsim/devices/vsrx.yml:3-12`, `netsim/devices/vyos.yml:3-5`,
`netsim/daemons/bird.yml:5`, `netsim/daemons/dnsmasq.yml:1-5`.  The management interface and container names are those of the
`clab` provider when it has its own ones; `ios` and `junos` are only parents of other devices. -/
def nameTable : List NameDev :=
  [{ device := "arubacx", phys := "1/1/{ifindex}", loop := some "loopback {ifindex}", tunnel := some "tunnel {ifindex}",
     lag := some "lag {lag.ifindex}", svi := some "vlan{vlan}", mgmt := some "mgmt", clab := some "eth{ifindex}" },
   { device := "asav", phys := "GigabitEthernet0/{ifindex}", mgmt := some "Management0/0", offset := 0 },
   { device := "cat8000v", phys := "GigabitEthernet{ifindex}", loop := some "Loopback{ifindex}", tunnel := some "Tunnel{ifindex}",
     svi := some "BDI{vlan}", subif := some "{ifname}.{subif_index}", offset := 2, clab := some "eth{ifindex-1}" },
   { device := "csr", phys := "GigabitEthernet{ifindex}", loop := some "Loopback{ifindex}", tunnel := some "Tunnel{ifindex}",
     svi := some "BDI{vlan}", subif := some "{ifname}.{subif_index}", offset := 2, clab := some "eth{ifindex-1}" },
   { device := "cumulus", phys := "swp{ifindex}", loop := some "lo{ifindex if ifindex else \"\"}", tunnel := some "tun{ifindex}",
     lag := some "bond{lag.ifindex}", svi := some "vlan{vlan}", subif := some "{ifname}.{vlan.access_id}", mgmt := some "eth0" },
   { device := "cumulus_nvue", phys := "swp{ifindex}", loop := some "lo{ifindex if ifindex else \"\"}",
     lag := some "bond{lag.ifindex}", svi := some "vlan{vlan}", subif := some "{ifname}.{vlan.access_id}", mgmt := some "eth0" },
   { device := "dellos10", phys := "ethernet1/1/{ifindex}", loop := some "loopback{ifindex}", lag := some "port-channel{lag.ifindex}",
     svi := some "virtual-network{vlan}", mgmt := some "mgmt1/1/1", clab := some "eth{ifindex}" },
   { device := "eos", phys := "Ethernet{ifindex}", loop := some "Loopback{ifindex}", tunnel := some "Tunnel{ifindex}",
     lag := some "port-channel{lag.ifindex}", svi := some "Vlan{vlan}", subif := some "{ifname}.{subif_index}",
     mgmt := some "Management1" },
   { device := "eos (clab)", phys := "Ethernet{ifindex}", loop := some "Loopback{ifindex}", tunnel := some "Tunnel{ifindex}",
     lag := some "port-channel{lag.ifindex}", svi := some "Vlan{vlan}", subif := some "{ifname}.{subif_index}",
     mgmt := some "Management0", clab := some "et{ifindex}" },
   { device := "fortios", phys := "port{ifindex}", loop := some "loopback{ifindex}", mgmt := some "port1", offset := 2 },
   { device := "frr", phys := "eth{ifindex}", loop := some "lo{ifindex if ifindex else \"\"}", tunnel := some "tun{ifindex}",
     lag := some "bond{lag.ifindex}", svi := some "vlan{vlan}", subif := some "{ifname}.{vlan.access_id}", mgmt := some "eth0" },
   { device := "iol", phys := "Ethernet{ifindex // 4}/{ifindex % 4}", loop := some "Loopback{ifindex}", tunnel := some "Tunnel{ifindex}",
     svi := some "BDI{vlan}", subif := some "{ifname}.{subif_index}", clab := some "Ethernet{ifindex // 4}/{ifindex % 4}" },
   { device := "ioll2", phys := "Ethernet{ifindex // 4}/{ifindex % 4}", loop := some "Loopback{ifindex}", tunnel := some "Tunnel{ifindex}",
     svi := some "Vlan{vlan}", subif := some "{ifname}.{subif_index}", clab := some "Ethernet{ifindex // 4}/{ifindex % 4}" },
   { device := "iosv", phys := "GigabitEthernet0/{ifindex}", loop := some "Loopback{ifindex}", tunnel := some "Tunnel{ifindex}",
     svi := some "BVI{bvi}", subif := some "{ifname}.{subif_index}", clab := some "eth{ifindex}" },
   { device := "iosvl2", phys := "GigabitEthernet{ifindex // 4}/{ifindex % 4}", loop := some "Loopback{ifindex}",
     tunnel := some "Tunnel{ifindex}", svi := some "Vlan{vlan}", subif := some "{ifname}.{subif_index}", clab := some "eth{ifindex}" },
   { device := "iosxr", phys := "GigabitEthernet0/0/0/{ifindex}", mgmt := some "MgmtEth0/RP0/CPU0/0", offset := 0,
     clab := some "Gi0-0-0-{ifindex}" },
   { device := "linux", phys := "eth{ifindex}", lag := some "bond{lag.ifindex}", mgmt := some "eth0" },
   { device := "none", phys := "eth{ifindex}", loop := some "Loopback{ifindex}", tunnel := some "Tunnel{ifindex}",
     lag := some "bond{lag.ifindex}", svi := some "Vlan{vlan}", subif := some "{ifname}.{subif_index}" },
   { device := "nxos", phys := "Ethernet1/{ifindex}", loop := some "loopback{ifindex}", svi := some "vlan{vlan}",
     subif := some "{ifname}.{subif_index}", mgmt := some "mgmt0", clab := some "eth{ifindex}" },
   { device := "routeros", phys := "ether{ifindex}", svi := some "bridge{vlan}", subif := some "{ifname}-{vlan.access_id}",
     mgmt := some "ether1", offset := 2 },
   { device := "routeros7", phys := "ether{ifindex}", loop := some "loopback{ifindex}", svi := some "vlan{vlan}",
     subif := some "{ifname}-{vlan.access_id}", mgmt := some "ether1", offset := 2, clab := some "eth{ifindex-1}" },
   { device := "sonic", phys := "Ethernet{ifindex * 4}", loop := some "Loopback{ifindex}", mgmt := some "eth0", offset := 0 },
   { device := "srlinux", phys := "ethernet-1/{ifindex}", loop := some "lo0.{ifindex}", svi := some "irb0.{vlan}",
     subif := some "{ifname}.{vlan.access_id}", mgmt := some "mgmt0", clab := some "e1-{ifindex}" },
   { device := "sros", phys := "1/1/c{ifindex}", loop := some "loopback.{ifindex}", svi := some "svi.{vlan}",
     subif := some "{ifname}/1:{vlan.access_id}", mgmt := some "A/1", clab := some "eth{ifindex}" },
   { device := "unknown", phys := "eth{ifindex}", mgmt := some "eth0" },
   { device := "vjunos-router", phys := "ge-0/0/{ifindex}", loop := some "lo0.{ifindex}", svi := some "irb.{vlan}",
     subif := some "{ifname}.{vlan.access_id}", mgmt := some "fxp0", offset := 0, clab := some "eth{ifindex+1}" },
   { device := "vjunos-switch", phys := "ge-0/0/{ifindex}", loop := some "lo0.{ifindex}", svi := some "irb.{vlan}",
     subif := some "{ifname}.{vlan.access_id}", mgmt := some "fxp0", offset := 0, clab := some "eth{ifindex+1}" },
   { device := "vmx", phys := "ge-0/0/{ifindex}", loop := some "lo0.{ifindex}", svi := some "irb.{vlan}",
     subif := some "{ifname}.{vlan.access_id}", mgmt := some "fxp0", offset := 0, clab := some "eth{ifindex+1}" },
   { device := "vptx", phys := "et-0/0/{ifindex}", loop := some "lo0.{ifindex}", svi := some "irb.{vlan}",
     subif := some "{ifname}.{vlan.access_id}", mgmt := some "re0:mgmt-0", offset := 0, clab := some "eth{ifindex+1}" },
   { device := "vsrx", phys := "ge-0/0/{ifindex}", loop := some "lo0.{ifindex}", subif := some "{ifname}.{vlan.access_id}",
     mgmt := some "fxp0", offset := 0, clab := some "eth{ifindex+1}" },
   { device := "vyos", phys := "eth{ifindex}", loop := some "dum{ifindex}", svi := some "br0.{vlan}",
     subif := some "{ifname}.{vlan.access_id}", mgmt := some "eth0" },
   { device := "bird", phys := "eth{ifindex}", loop := some "lo{ifindex if ifindex else \"\"}", lag := some "bond{lag.ifindex}",
     mgmt := some "eth0" },
   { device := "dnsmasq", phys := "eth{ifindex}", lag := some "bond{lag.ifindex}", mgmt := some "eth0" }]

end Netlab
