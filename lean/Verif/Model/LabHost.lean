import Verif.Model.Box
/-!
# Resources of the host running the lab (`netsim/providers/clab.py`, `netsim/providers/libvirt.py`)

Linux and Open vSwitch bridges used for multi-access links between containers, kernel modules needed
by containers, the libvirt management network, and the check of container images and Vagrant boxes.

External commands are modelled by their effect on the state of the host; `fail` says which of
them fail for reasons outside the model.  Printouts and logging are left out.
-/

namespace Netlab

/-- A link as seen by `netsim/providers/clab.py:18-19` (`list_bridges`): the bridge name (missing
or empty = none), the number of nodes, and the `clab.external_bridge` attribute. -/
structure HLink where
  bridge : Option String
  nodeCount : Nat
  external : Bool
  deriving Repr, DecidableEq

/-- `netsim/providers/clab.py:18-19` (`list_bridges`).  The result is a Python set; the model lists
the bridges in the order of links. -/
def listBridges (links : List HLink) : List String :=
  (links.filterMap (fun l =>
    match l.bridge with
    | none => none
    | some b => if b ≠ "" ∧ l.nodeCount > 2 ∧ l.external = false then some b else none)).eraseDups

/-- State of one bridge on the host: enabled, and forwarding LLDP
(`netsim/providers/clab.py:24-43`, `netsim/utils/linuxbridge.py:10-18`). -/
structure BrState where
  up : Bool
  fwd : Bool
  deriving Repr, DecidableEq

/-- Bridges of the host (`netsim/providers/clab.py:24-51`) -/
abbrev BrHost := List (String × BrState)

/-- External commands used to manage bridges (`netsim/providers/clab.py:30-47`,
`netsim/providers/clab.py:73-82`, `netsim/utils/linuxbridge.py:11`) -/
inductive BrCmd where
  | add (n : String)
  | enable (n : String)
  | forward (n : String)
  | del (n : String)
  deriving Repr, DecidableEq

/-- Effect of an external command on the host (`netsim/cli/external_commands.py:74-117`,
`run_command`): `none` = the command failed.  A command fails when its object does not exist (or,
for `add`, exists), and when `fail` says so.  A failed command does not change the host. -/
def brExec (fail : BrCmd → Bool) (h : BrHost) (c : BrCmd) : Option BrHost :=
  if fail c then none
  else match c with
    | .add n => if (h.lookup n).isSome then none else some (h ++ [(n, ⟨false, false⟩)])
    | .enable n => (h.lookup n).map (fun s => setKey h n { s with up := true })
    | .forward n => (h.lookup n).map (fun s => setKey h n { s with fwd := true })
    | .del n => if (h.lookup n).isSome then some (popKey h n) else none

/-- A sequence of commands that stops at the first failure: the three commands of
`netsim/providers/clab.py:30-43`.  The result is the list of all states of the host (the last one is
the final state). -/
def brSeq (fail : BrCmd → Bool) (h : BrHost) : List BrCmd → List BrHost
  | [] => [h]
  | c :: cs =>
    match brExec fail h c with
    | none => [h]
    | some h' => h :: brSeq fail h' cs

/-- `netsim/providers/clab.py:24-43` (`create_linux_bridge`), not in dry-run mode: states of the host.
An existing bridge is used as it is. -/
def createLinuxBridge (fail : BrCmd → Bool) (h : BrHost) (n : String) : List BrHost :=
  if (h.lookup n).isSome then [h] else brSeq fail h [.add n, .enable n, .forward n]

/-- `netsim/providers/clab.py:71-78` (`create_ovs_bridge`); Open vSwitch is installed -/
def createOvsBridge (fail : BrCmd → Bool) (h : BrHost) (n : String) : List BrHost :=
  brSeq fail h [.add n]

/-- `netsim/providers/clab.py:45-51` (`destroy_linux_bridge`) and `netsim/providers/clab.py:80-86`
(`destroy_ovs_bridge`) -/
def destroyBridge (fail : BrCmd → Bool) (h : BrHost) (n : String) : List BrHost :=
  brSeq fail h [.del n]

/-- The loop over bridges in `netsim/providers/clab.py:198-213`: states of the host.  The status
returned for one bridge is ignored, so the loop always continues. -/
def brLoop (f : BrHost → String → List BrHost) (h : BrHost) : List String → List BrHost
  | [] => [h]
  | n :: ns => f h n ++ brLoop f ((f h n).getLastD h) ns

/-- `netsim/providers/clab.py:198-204` (`pre_start_lab`, bridges): states of the host -/
def clabPreStart (ovs : Bool) (fail : BrCmd → Bool) (h : BrHost) (brs : List String) : List BrHost :=
  brLoop (if ovs then createOvsBridge fail else createLinuxBridge fail) h brs

/-- `netsim/providers/clab.py:207-213` (`post_stop_lab`): states of the host -/
def clabPostStop (fail : BrCmd → Bool) (h : BrHost) (brs : List String) : List BrHost :=
  brLoop (destroyBridge fail) h brs

/-! ### Kernel modules -/

/-- A node as seen by `netsim/providers/clab.py:133-155` (`load_kmods`): provider, device-specific
kernel modules (`none` = no `kmods` attribute; a null value is an empty dictionary) and netlab
modules. -/
structure KmNode where
  provider : String
  kmods : Option (List (String × List String))
  modules : List String
  deriving Repr, DecidableEq

/-- `netsim/data/__init__.py:37-47` (`append_to_list`) on a dictionary of lists -/
def kmAppend (d : List (String × List String)) (m k : String) : List (String × List String) :=
  let l := (d.lookup m).getD []
  setKey d m (if l.contains k then l else l ++ [k])

/-- The body of the loop over netlab modules of a node (`netsim/providers/clab.py:151-155`): device
settings replace system settings of the same netlab module. -/
def kmMod (sys dev d : List (String × List String)) (m : String) : List (String × List String) :=
  match (dev.lookup m).or (sys.lookup m) with
  | none => d
  | some ks => ks.foldl (fun d k => kmAppend d m k) d

/-- The loop over netlab modules of a node (`netsim/providers/clab.py:138-155`) -/
def kmNode (sys : List (String × List String)) (d : List (String × List String)) (n : KmNode) :
    List (String × List String) :=
  if n.provider ≠ "clab" then d
  else match n.kmods with
    | none => d
    | some dev =>
      ("initial" :: n.modules).foldl (kmMod sys dev) d

/-- `netsim/providers/clab.py:133-155` (`load_kmods`, first part): needed kernel modules by netlab
module -/
def kmNeeded (sys : List (String × List String)) (nodes : List KmNode) : List (String × List String) :=
  nodes.foldl (kmNode sys) []

/-- Loading of kernel modules: `loaded` modules, executed `modprobe` commands and errors
(`netsim/providers/clab.py:160-173`). -/
structure KmState where
  loaded : List String
  cmds : List String
  errors : Nat
  deriving Repr, DecidableEq

/-- One `modprobe` command (`netsim/providers/clab.py:167-172`); `bad` modules cannot be loaded.
Other modules a kernel module depends on are left out. -/
def kmProbe (bad : String → Bool) (s : KmState) (k : String) : KmState :=
  if bad k then { s with cmds := s.cmds ++ [k], errors := s.errors + 1 }
  else { s with loaded := k :: s.loaded, cmds := s.cmds ++ [k] }

/-- `netsim/providers/clab.py:160-173` (`load_kmods`, second part); a non-zero number of errors
stops the program. -/
def kmLoad (bad : String → Bool) (loaded : List String) (needed : List (String × List String)) : KmState :=
  needed.foldl (fun s e => (e.2.filter (fun k => !s.loaded.contains k)).foldl (kmProbe bad) s)
    ⟨loaded, [], 0⟩

/-! ### Images -/

/-- A node as seen by `validate_node_image` (`netsim/providers/clab.py:254-283`): image name, and
whether the device has a recipe for building the image. -/
structure ImgNode where
  box : String
  build : Bool
  deriving Repr, DecidableEq

/-- `netsim/providers/clab.py:254-283` (`validate_node_image`) called for all nodes
(`netsim/providers/__init__.py:382-388`): `inst` says whether an image is installed, `seen` is the
cache; the result is the list of images reported as missing. -/
def clabImages (inst : String → Bool) : List String → List ImgNode → List String
  | _, [] => []
  | seen, n :: ns =>
    if seen.contains n.box then clabImages inst seen ns
    else if inst n.box || !n.build then clabImages inst (n.box :: seen) ns
    else n.box :: clabImages inst (n.box :: seen) ns

/-- Python `s in t` for strings (`netsim/providers/libvirt.py:455-457`) -/
def subIn (s : List Char) : List Char → Bool
  | [] => s.isEmpty
  | c :: t => s.isPrefixOf (c :: t) || subIn s t

/-- The text before and after the first colon-separated element (`netsim/providers/libvirt.py:448-450`):
box name and version (empty when there is none).  Anything after the second colon is ignored. -/
def boxSpec (box : List Char) : List Char × List Char :=
  (box.takeWhile (· ≠ ':'), ((box.dropWhile (· ≠ ':')).drop 1).takeWhile (· ≠ ':'))

/-- One line of the list of boxes (`netsim/providers/libvirt.py:452-456`) -/
def boxLineMatch (box line : List Char) : Bool :=
  subIn "(libvirt".toList line &&
  (subIn ((boxSpec box).1 ++ [' ']) line && subIn ((boxSpec box).2 ++ [')']) line)

/-- `netsim/providers/libvirt.py:437-470` (`validate_node_image`): `lines` is the output of
`vagrant box list`, the result says whether the image is reported as missing. -/
def libvirtImageMissing (lines : List (List Char)) (n : ImgNode) : Bool :=
  if lines.any (boxLineMatch n.box.toList) then false else n.build

/-! ### The libvirt management network -/

/-- `netsim/providers/libvirt.py:110-159` (`create_vagrant_network`): `running` = Vagrant virtual
machines are running, `permanent` = the `_permanent` attribute of the management pool, `active` = the
text printed by `virsh net-list` (active networks); `nets` are networks defined on the host, each
with the subnet it uses, and `subnet` is the one in the template created from the lab
topology.  `virsh net-define` fails when there is already a network with the same name. -/
def createVagrantNetwork (running permanent : Bool) (active : List Char) (nets : List (String × String))
    (net subnet : String) : List (String × String) :=
  if running then nets
  else
    let nets' := if permanent then nets else popKey nets net
    let create := if permanent then !subIn net.toList active else true
    if create && (nets'.lookup net).isNone then nets' ++ [(net, subnet)] else nets'

end Netlab
