import Verif.Model.Nodeset
/-!
# Names and images of virtual machines and containers (`netsim/providers`)

Names are lists of characters.
-/

namespace Netlab

/-- `netsim/providers/libvirt.py:434-435` (`get_node_name`), also used by VirtualBox (`netsim/providers/virtualbox.py:17-18`) -/
def vmName (lab node : List Char) : List Char := (splitOnChar '.' lab).headD [] ++ '_' :: node

/-- `netsim/providers/clab.py:250-252` (`get_node_name`) -/
def containerName (pfx lab node : List Char) : List Char :=
  if pfx.isEmpty then node else pfx ++ '-' :: (lab ++ '-' :: node)

/-- `netsim/providers/__init__.py:88-94` (`node_image_version`): Vagrant box and its version -/
def boxImage (box : List Char) : List Char × Option (List Char) :=
  if box.contains '.' then
    let s := splitOnChar ':' box
    (s.headD [], s.tail.head?)
  else (box, none)

/-- `netsim/providers/__init__.py:255-260` (`pre_output_transform`); `virtual` are the types of virtual interfaces
(`netsim/augment/links.py:18-20`). -/
def outputLinks {α : Type} (virtual : List String) (links : List (String × α)) : List (String × α) :=
  links.filter (fun l => !virtual.contains l.1)

/-- `netsim/providers/external.py:13-16` (`External.pre_transform`): the identifier of the lab -/
def externalLab (id : Option String) (lab : String) : String :=
  match id with
  | some i => if i = "" then "external_" ++ lab else i
  | none => "external_" ++ lab

end Netlab
