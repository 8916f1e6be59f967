import Verif.Model.Sort
/-!
# Module lists and module dependencies (`netsim/modules/__init__.py`)
-/

namespace Netlab

/-- A node as seen by the module checks (`netsim/modules/__init__.py:145-186`): name, device, the
`host` role and `daemon` device attribute, and the list of modules (`none` = attribute is
missing). -/
structure ModNode where
  name : String
  device : String
  isHost : Bool
  daemon : Bool
  module : Option (List String)
  deriving Repr, DecidableEq

/-- Module definition in the system defaults (`netsim/modules/__init__.py:170-186`): modules it
requires, devices it is supported on (`none` = no `supported_on` list). -/
structure ModInfo where
  requires : List String
  supportedOn : Option (List String)
  deriving Repr

/-- `netsim/modules/__init__.py:145-165` (`augment_node_module`) for one node (without the check of
values in the list): a node without modules gets the global list unless it is a host. -/
def augmentNodeModule (gModule : List String) (n : ModNode) : ModNode :=
  match n.module with
  | some _ => n
  | none => if !gModule.isEmpty && (!n.isHost || n.daemon) then { n with module := some gModule } else n

/-- `netsim/modules/__init__.py:239-260` (`adjust_global_modules`): the new global list of modules.
Python's `sorted(set(...))`: sorted list without duplicates. -/
def adjustGlobalModules (gModule : List String) (nodes : List ModNode) : List String :=
  ((gModule ++ nodes.flatMap (fun n => n.module.getD [])).eraseDups).mergeSort (fun a b => decide (a ≤ b))

/-- Inner loops of `netsim/modules/__init__.py:345-360`: errors for one module on one node; each
error is (module, node, missing module).  `devReq device module` is the device-specific
list of requirements. -/
def nodeDepErrors (devReq : String → String → List String) (m : String) (modReq : List String)
    (n : ModNode) : List (String × String × String) :=
  if !(n.module.getD []).contains m then []
  else ((modReq ++ devReq n.device m).filter (fun q => !(n.module.getD []).contains q)).map
    (fun q => (m, n.name, q))

/-- `netsim/modules/__init__.py:331-360` (`check_module_dependencies`): global errors (module,
missing module) and node errors (module, node, missing module).  `defs` are the module
definitions in the system defaults; a module without defaults is skipped. -/
def checkModuleDeps (topoModules : List String) (nodes : List ModNode)
    (defs : String → Option ModInfo) (devReq : String → String → List String) :
    List (String × String) × List (String × String × String) :=
  (topoModules.flatMap (fun m => match defs m with
     | none => []
     | some d => (d.requires.filter (fun q => !topoModules.contains q)).map (fun q => (m, q))),
   topoModules.flatMap (fun m => match defs m with
     | none => []
     | some d => nodes.flatMap (nodeDepErrors devReq m d.requires)))

/-- `netsim/modules/__init__.py:170-186` (`check_supported_node_devices`): errors (module, node) -/
def checkSupported (nodes : List ModNode) (defs : String → Option ModInfo) :
    List (String × String) :=
  nodes.flatMap (fun n => (n.module.getD []).filterMap (fun m =>
    match defs m with
    | none => some (m, n.name)
    | some d =>
      match d.supportedOn with
      | none => none
      | some l => if l.contains n.device then none else some (m, n.name)))

/-- The module phases in order: `netsim/modules/__init__.py:308-313` (`adjust_modules`),
`netsim/modules/__init__.py:74-76` (`pre_transform`: module validation) and
`netsim/modules/__init__.py:115-116` (`post_transform`: device support).  Each phase ends with
`log.exit_on_error`.  `none` = an error was reported. -/
def modulePhases (gModule : List String) (nodes : List ModNode) (defs : String → Option ModInfo)
    (devReq : String → String → List String) : Option (List String × List ModNode) :=
  let nodes' := nodes.map (augmentNodeModule gModule)
  let g := adjustGlobalModules gModule nodes'
  let (e1, e2) := checkModuleDeps g nodes' defs devReq
  if !e1.isEmpty || !e2.isEmpty then none
  else if !(checkSupported nodes' defs).isEmpty then none
  else some (g, nodes')

end Netlab
