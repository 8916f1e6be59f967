import Verif.Model.Settings
import Verif.Model.VlanAccess
/-!
# Device data: attributes, features, daemons and lists of supported devices (`netsim/augment/devices.py:10-75, 138-233`)
-/

namespace Netlab

/-- `netsim/augment/devices.py:23-47` (`get_device_attribute`): `dev` are device data, and `pd` are device data for the provider of the node (empty when there are
none; the empty dictionary created by the lookup in line 44 is not modelled). -/
def gdAttr (dev pd : List (String × Val)) (attr : String) : Option Val :=
  match pd.lookup attr with
  | none => dev.lookup attr
  | some (.dict p) =>
    match dev.lookup attr with
    | some (.dict v) => some (.dict (mergeDict v p))
    | _ => some (.dict p)
  | some x => some x

/-- `netsim/augment/devices.py:52-65` (`get_device_features`): `nf` is the `_features` attribute of the node; `none` is a fatal error. -/
def gdFeatures (nf : Option Val) (dev pd : List (String × Val)) : Option (List (String × Val)) :=
  let n := match nf with | some (.dict d) => d | _ => []
  match gdAttr dev pd "features" with
  | none => some n
  | some v =>
    if v.truthy then
      match v with
      | .dict f => some (mergeDict f n)
      | _ => none
    else some n

/-- A dictionary in device data; a missing one is created (`netsim/augment/devices.py:194`). -/
def ddDict (v : Option Val) : List (String × Val) :=
  match v with
  | some (.dict g) => g
  | _ => []

/-- The device created from a daemon (`netsim/augment/devices.py:191-199`) -/
def ddDaemon (name : String) (d : Device) : Device :=
  let data := setKey d.data "daemon" (.bool true)
  let gv := ddDict (data.lookup "group_vars")
  let data := if (gv.lookup "netlab_device_type").isNone then setKey data "group_vars" (.dict (setKey gv "netlab_device_type" (.str name))) else data
  ⟨some (d.parent.getD "linux"), setKey data "daemon_parent" (.str (d.parent.getD "linux"))⟩

/-- `netsim/augment/devices.py:178-199` (`merge_daemons`); `none` is a fatal error. -/
def ddMerge (daemons devs : List (String × Device)) : Option (List (String × Device)) :=
  if daemons.any (fun d => (devs.lookup d.1).isSome) then none
  else some (daemons.foldl (fun a d => setKey a d.1 (ddDaemon d.1 d.2)) devs)

/-- A dictionary in default settings (`netsim/augment/devices.py:156-171`): does it have attributes (it's a module then), and the list of supported devices -/
structure DdModule where
  attrs : Bool
  on : Option (List String)

/-- Adding a device to the list (`netsim/augment/devices.py:169-173`) -/
def ddAdd (dname : String) (m : DdModule) : DdModule :=
  { m with on := some (if (m.on.getD []).contains dname then m.on.getD [] else m.on.getD [] ++ [dname]) }

/-- One feature of a device in `netsim/augment/devices.py:150-173` -/
def ddModStep (dname : String) (mods : List (String × DdModule)) (p : String × Val) : List (String × DdModule) :=
  match mods.lookup p.1 with
  | some m => if m.attrs && !vaFalse p.2 then setKey mods p.1 (ddAdd dname m) else mods
  | none => mods

/-- Changes of features of a device in `netsim/augment/devices.py:150-167` -/
def ddFeatures (mods : List (String × DdModule)) (f : List (String × Val)) : List (String × Val) :=
  f.filterMap (fun p => match p.2 with
    | .null => some (p.1, .dict [])
    | .bool true => some (p.1, .dict [])
    | .bool false => match mods.lookup p.1 with
      | some m => if m.attrs then none else some p
      | none => some p
    | _ => some p)

/-- `netsim/augment/devices.py:141-173` (`build_module_support_lists`): the lists; devices (in sorted order) have optional features. -/
def ddSupport (devs : List (String × Option (List (String × Val)))) (mods : List (String × DdModule)) : List (String × DdModule) :=
  devs.foldl (fun a d => (d.2.getD []).foldl (ddModStep d.1) a) mods

/-- The end of `netsim/augment/devices.py:207-233` (`augment_device_settings`): devices and the number of errors -/
def ddFinal (devs : List (String × Device)) : List (String × Device) × Nat :=
  (devs.filter (fun d => (d.2.data.lookup "template").isNone),
   ((devs.filter (fun d => (d.2.data.lookup "template").isNone)).map (fun d =>
    (if (d.2.data.lookup "interface_name").isNone then 1 else 0) + (if (d.2.data.lookup "description").isNone then 1 else 0))).sum)

end Netlab
