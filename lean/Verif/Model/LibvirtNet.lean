import Verif.Model.Files
import Verif.Model.Box
/-!
# Networks of libvirt labs

The definition of the management network (`netsim/providers/libvirt.py:40-108`), link attributes set before the
transformation of the topology (`netsim/providers/libvirt.py:268-293`, `netsim/providers/__init__.py:235-250`), Linux bridges
(`netsim/providers/libvirt.py:377-406`) and packet capture (`netsim/cli/capture.py:34-64`,
`netsim/providers/libvirt.py:472-505`).
-/

namespace Netlab

/-! ### Management network -/

/-- A part of an XML file, `netsim/providers/libvirt.py:40-68`: text, an IPv4 address (or mask) in single quotes, the place
where bindings are added, a binding.  Simplification: IPv4 addresses in quotes are numbers. -/
inductive XTok
  | text (s : List Char)
  | addr (n : Nat)
  | more
  | host (mac ip : String)
deriving DecidableEq, Repr

/-- `ipaddress.IPv4Network`, `netsim/providers/libvirt.py:41-42`. -/
structure LvNet where
  base : Nat
  size : Nat
deriving DecidableEq, Repr

/-- `net[i]`, `netsim/providers/libvirt.py:46`: `none` is `IndexError`. -/
def lvIndex (n : LvNet) (i : Int) : Option Nat :=
  if 0 ≤ i then if i < n.size then some (n.base + i.toNat) else none
  else if -i ≤ n.size then some (n.base + n.size - (-i).toNat) else none

/-- `net.netmask`, `netsim/providers/libvirt.py:44`. -/
def lvMask (n : LvNet) : Nat := 2 ^ 32 - n.size

/-- `xml.replace` for an address in quotes, `netsim/providers/libvirt.py:44-46`. -/
def lvReplace (a b : Nat) (xml : List XTok) : List XTok := xml.map (fun t => if t = .addr a then .addr b else t)

/-- Static bindings, `netsim/providers/libvirt.py:52-60`; `none` is an exception.  The first argument limits the number of
iterations; the address isn't in the old network anymore when the limit is reached. -/
def lvStatic (o d : LvNet) : Nat → Int → Int → List XTok → Option (List XTok)
  | 0, _, _, _ => none
  | f + 1, os, ds, xml =>
    match lvIndex o (os + 1) with
    | none => none
    | some oa =>
      if .addr oa ∈ xml then
        match lvIndex d (ds + 1) with
        | none => none
        | some da => lvStatic o d f (os + 1) (ds + 1) (lvReplace oa da xml)
      else some xml

/-- Binding of a node, `netsim/providers/libvirt.py:62-64`. -/
def lvBind (xml : List XTok) (n : String × String) : List XTok :=
  xml.flatMap (fun t => if t = .more then [.host n.1 n.2, .more] else [t])

/-- `replace_xml_mgmt_subnet`, `netsim/providers/libvirt.py:40-66`.  `o` is the network in the template. -/
def lvSubnet (o d : LvNet) (start : Int) (nodes : List (String × String)) (xml : List XTok) : Option (List XTok) :=
  let xml := lvReplace (lvMask o) (lvMask d) xml
  match lvIndex o 1, lvIndex d 1, lvIndex o 2, lvIndex d 2, lvIndex o 99, lvIndex d (start - 1) with
  | some o1, some d1, some o2, some d2, some o3, some d3 =>
    (lvStatic o d (o.size + 1) 100 start (lvReplace o3 d3 (lvReplace o2 d2 (lvReplace o1 d1 xml)))).map
      (fun xml => nodes.foldl lvBind xml)
  | _, _, _, _, _, _ => none

/-- Replace text, `netsim/providers/libvirt.py:97-101`. -/
def lvText (x y : List Char) (xml : List XTok) : List XTok :=
  xml.map (fun t => match t with
    | .text s => .text (replStr x y 0 s)
    | t => t)

/-- `create_network_template`, `netsim/providers/libvirt.py:85-108`; `net` and `br` are the names of the management network and bridge
(empty when not specified), `nodes` are MAC and IP addresses of nodes. -/
def lvTemplate (net br : List Char) (o d : LvNet) (start : Int) (nodes : List (String × String)) (xml : List XTok) :
    Option (List XTok) :=
  let xml := if net = [] then xml else lvText "vagrant-libvirt".toList net xml
  let xml := if br = [] then xml else lvText "libvirt-mgmt".toList br xml
  lvSubnet o d start nodes xml

/-- `LIBVIRT_MANAGEMENT_SUBNET`, `netsim/providers/libvirt.py:24-28`: 192.168.121.0/24. -/
def lvOld : LvNet := ⟨3232266496, 256⟩

/-- The template, `netsim/templates/provider/libvirt/vagrant-libvirt.xml:1-16`. -/
def lvShipped : List XTok :=
  [.text "<network><name>".toList, .text "vagrant-libvirt".toList,
   .text "</name><forward mode='nat'><nat><port start='1024' end='65535'/></nat></forward><bridge name='".toList,
   .text "libvirt-mgmt".toList, .text "' stp='on' delay='0'/><mac address='52:54:00:d8:3f:0d'/><ip address=".toList,
   .addr 3232266497, .text " netmask=".toList, .addr 4294967040, .text "><dhcp><range start=".toList, .addr 3232266498,
   .text " end=".toList, .addr 3232266595, .text "/>".toList, .more, .text "</dhcp></ip></network>".toList]

/-! ### Links -/

/-- A link, `netsim/providers/libvirt.py:268-293`: `pub` and `uplink` are link attributes (`libvirt.public`, `libvirt.uplink`),
`provs` the providers collected in `libvirt.provider`, `sec` the uplinks of other providers. -/
structure LvLink where
  linkindex : Nat
  type : Option String
  pub : Option String := none
  uplink : Option String := none
  provs : List String := []
  sec : List (String × String) := []
  bridge : Option String := none
  nodes : List String := []
deriving DecidableEq, Repr

/-- The value is not empty, `netsim/providers/libvirt.py:274-276`. -/
def lvSet (v : Option String) : Bool := (v.getD "") != ""

/-- The default uplink, `netsim/providers/libvirt.py:273-278`. -/
def lvUplink (l : LvLink) : LvLink := if lvSet l.pub && !lvSet l.uplink then { l with uplink := some "eth0" } else l

/-- A node attached to the link, `netsim/providers/__init__.py:240-250`; `prov` is the `provider` attribute of the node. -/
def lvNode (primary : String) (prov : String → Option String) (l : LvLink) (n : String) : LvLink :=
  match prov n with
  | none => l
  | some s =>
    let l := { l with provs := if l.provs.contains s then l.provs else l.provs ++ [s] }
    match l.uplink with
    | none => l
    | some u => if s = primary then l else { l with sec := setKey l.sec s u }

/-- The link after the generic processing, `netsim/providers/libvirt.py:285-293`. -/
def lvFinal (p2pBridge : Bool) (name : String) (l : LvLink) : LvLink :=
  let l := if lvSet l.uplink && l.pub.isNone then { l with pub := some "bridge" } else l
  if (!l.provs.isEmpty && !subStr "vlan".toList (l.type.getD "").toList) || (p2pBridge && (l.type.getD "p2p") == "p2p") then
    { l with type := some "lan",
             bridge := if l.bridge.isSome then l.bridge
                       else some (String.ofList (name.toList.take 10) ++ "_" ++ toString l.linkindex) }
  else l

/-- `pre_transform`, `netsim/providers/libvirt.py:268-293`. -/
def lvPre (prov : String → Option String) (p2pBridge : Bool) (name : String) (links : List LvLink) : List LvLink :=
  links.map (fun l => lvFinal p2pBridge name (l.nodes.foldl (lvNode "libvirt" prov) (lvUplink l)))

/-! ### Linux bridges -/

/-- Changes of Linux bridges, `netsim/utils/linuxbridge.py:10-18`, `netsim/providers/libvirt.py:401-402`. -/
inductive LvCmd
  | forward (br : String)
  | stpOff (br : String)
deriving DecidableEq, Repr

/-- A link: bridge name and the use of libvirt, `netsim/providers/libvirt.py:383-388`. -/
structure LvBrLink where
  bridge : Option String
  libvirt : Bool
deriving DecidableEq, Repr

/-- A link in `post_start_lab`, `netsim/providers/libvirt.py:383-406`: the link, commands that succeeded, the number of errors.  `info`
is the name of the Linux bridge (`get_linux_bridge_name`, `netsim/providers/libvirt.py:161-179`), `ok` the result of a
command. -/
def lvPostLink (info : String → Option String) (ok : LvCmd → Bool) (l : LvBrLink) : LvBrLink × List LvCmd × Nat :=
  match l.bridge with
  | none => (l, [], 0)
  | some b =>
    if b = "" then (l, [], 0)
    else if !l.libvirt then (l, [], 0)
    else match info b with
      | none => (l, [], 1)
      | some x =>
        if !ok (.forward x) then ({ l with bridge := some x }, [], 1)
        else if !ok (.stpOff x) then ({ l with bridge := some x }, [.forward x], 1)
        else ({ l with bridge := some x }, [.forward x, .stpOff x], 0)

/-- The loop over links, `netsim/providers/libvirt.py:383-406`. -/
def lvPost (info : String → Option String) (ok : LvCmd → Bool) : List LvBrLink → List LvBrLink × List LvCmd × Nat
  | [] => ([], [], 0)
  | l :: rest =>
    let x := lvPostLink info ok l
    let r := lvPost info ok rest
    (x.1 :: r.1, x.2.1 ++ r.2.1, x.2.2 + r.2.2)

/-! ### Packet capture -/

/-- An interface: device name and container interface name, `netsim/cli/capture.py:53-67`. -/
structure CapIntf where
  ifname : String
  clab : Option String := none
  bridge : Option String := none
  tunnel : Bool := false
deriving DecidableEq, Repr

/-- The interface selected by the user, `netsim/cli/capture.py:52-66`: `none` is an error. -/
def capIntf (ifs : List CapIntf) (arg : String) : Option CapIntf :=
  match ifs.find? (fun i => i.ifname == arg) with
  | some i => some i
  | none => ifs.find? (fun i => i.clab == some arg)

/-- The name passed to the provider, `netsim/cli/capture.py:65-67`. -/
def capName (i : CapIntf) (arg : String) : String :=
  match i.clab with
  | some c => if c = "" then arg else c
  | none => arg

/-- The host interface in the printout of `virsh domiflist`, `netsim/providers/libvirt.py:490-497`. -/
def lvTap (bridge : Option String) (rows : List (List String)) : Option String :=
  (rows.find? (fun r => r.length == 5 && r[2]? == bridge)).bind (·[0]?)

/-- `capture_command`, `netsim/providers/libvirt.py:472-505`: the host interface, or `none` (an error).  The first interface with the
requested name is used; an exception is an error. -/
def lvCapture (ifs : List CapIntf) (arg : String) (rows : List (List String)) : Option String :=
  match ifs.find? (fun i => i.ifname == arg) with
  | none => none
  | some i => if i.tunnel then none else lvTap i.bridge rows

end Netlab
