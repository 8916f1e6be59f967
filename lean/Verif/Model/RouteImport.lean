import Verif.Model.Box
/-!
# Route import and default routes (`netsim/modules/_routing.py`)

The dictionary with device features (`features.get(f'{proto}.import')`) is reduced to the values found in device definitions.
Routing policies of a node are reduced to their names: policies that are on the node when imports are processed were already
merged with the global ones (see C79).
-/

namespace Netlab

/-- Value of a source protocol in an `import` dictionary (`netsim/defaults/attributes.yml:202-213`): a boolean value, null, or a
dictionary with the name of a routing policy and the flag `auto` (`netsim/modules/_routing.py:615`) -/
inductive RiVal where
  | no
  | yes
  | null
  | dict (policy : Option String) (auto : Bool)
  deriving Repr, DecidableEq

/-- Device feature `<proto>.import` (`netsim/modules/_routing.py:529-530`): missing or false, true, or a list of sources and of the
keywords `vrf` and `no_policy` -/
inductive RiFeat where
  | off
  | all
  | list (l : List String)
  deriving Repr, DecidableEq

/-- Is the feature true in Python (`netsim/modules/_routing.py:530`)? -/
def RiFeat.truthy : RiFeat → Bool
  | .off => false
  | .all => true
  | .list l => !l.isEmpty

/-- `isinstance(f_import,list) and s_proto not in f_import` (`netsim/modules/_routing.py:539`), negated -/
def RiFeat.accepts (s : String) : RiFeat → Bool
  | .list l => l.contains s
  | _ => true

/-- `netsim/modules/_routing.py:593-594` -/
def RiFeat.vrfAware : RiFeat → Bool
  | .off => false
  | .all => true
  | .list l => l.contains "vrf"

/-- The node and the target protocol (`netsim/modules/_routing.py:522-527`): protocol, feature of the device, modules of the node,
keys of the node (`s_proto in node`, `netsim/modules/_routing.py:612`), BGP AS number present, names of global policies, policies
accepted by `check_routing_policy` and `import_policy_filters` -/
structure RiEnv where
  proto : String
  feat : RiFeat
  modules : List String
  keys : List String
  bgpAs : Bool
  glob : List String
  polOk : String → Bool

/-- Routing policies of the node, number of errors (`netsim/modules/_routing.py:508-513`) -/
structure RiPol where
  pols : List String
  errors : Nat := 0
  deriving Repr, DecidableEq

/-- `netsim/modules/_routing.py:508-513` (`node_add_routing_policy`) and `netsim/modules/routing.py:222-256`
(`import_routing_object`) -/
def riAddPolicy (env : RiEnv) (st : RiPol) (p : String) : RiPol :=
  if p = "" then st
  else if st.pols.contains p then st
  else if env.glob.contains p then { pols := st.pols ++ [p], errors := st.errors + if env.polOk p then 0 else 1 }
  else { st with errors := st.errors + 1 }

/-- `i_dict.get(f'{s_proto}.policy',None)` when it is true in Python (`netsim/modules/_routing.py:567-568`) -/
def RiVal.policy? : RiVal → Option String
  | .dict (some p) _ => if p = "" then none else some p
  | _ => none

/-- `True` becomes an empty dictionary (`netsim/modules/_routing.py:549-550`). -/
def RiVal.norm : RiVal → RiVal
  | .yes => .dict none false
  | v => v

/-- What changes while the import dictionary is processed; `stop` is set when the loop was left (`netsim/modules/_routing.py:575`). -/
structure RiState where
  dict : List (String × RiVal)
  pol : RiPol
  stop : Bool := false
  deriving Repr, DecidableEq

/-- An error while an import is checked (`netsim/modules/_routing.py:540`) -/
def RiState.fail (st : RiState) : RiState := { st with pol := { st.pol with errors := st.pol.errors + 1 } }

/-- Import policy (`netsim/modules/_routing.py:566-577`); `'no_policy' in True` is a type error. -/
def riPolicy (env : RiEnv) (st : RiState) (v : RiVal) : Option RiState :=
  match v.policy?, env.feat with
  | none, _ => some st
  | some _, .all => none
  | some p, .list l => if l.contains "no_policy" then some { st.fail with stop := true } else some { st with pol := riAddPolicy env st.pol p }
  | some p, .off => some { st with pol := riAddPolicy env st.pol p }

/-- The loop body in `netsim/modules/_routing.py:538-577` -/
def riEntry (env : RiEnv) (st : RiState) (s : String) : Option RiState :=
  if st.stop then some st
  else if !env.feat.accepts s then some st.fail
  else
    match st.dict.lookup s with
    | none => some st
    | some .no => some { st with dict := popKey st.dict s }
    | some v =>
      let st := { st with dict := setKey st.dict s v.norm }
      if !env.modules.contains s && s != "connected" then some st.fail
      else if s = env.proto then some st.fail
      else riPolicy env st v.norm

/-- RIPv2 becomes RIP (`netsim/modules/_routing.py:579-581`). -/
def riRename (d : List (String × RiVal)) : List (String × RiVal) :=
  match d.lookup "ripv2" with
  | some v => popKey (setKey d "rip" v) "ripv2"
  | none => d

/-- `netsim/modules/_routing.py:522-581` (`check_import_request`) -/
def riCheck (env : RiEnv) (st : RiPol) (d : List (String × RiVal)) : Option (RiPol × List (String × RiVal)) :=
  if !env.feat.truthy then some ({ st with errors := st.errors + 1 }, d)
  else ((d.map (·.1)).foldlM (riEntry env) { dict := d, pol := st }).map (fun r => (r.pol, riRename r.dict))

/-- Data of a routing protocol in a VRF (`netsim/modules/_routing.py:597-616`): a boolean value, or a dictionary with an optional
`import` dictionary -/
inductive RiProto where
  | flag (b : Bool)
  | data (imp : Option (List (String × RiVal)))
  deriving Repr, DecidableEq

/-- `netsim/modules/_routing.py:496-503` (`is_vrf_protocol`) -/
def riVrfProto (env : RiEnv) (v : List (String × RiProto)) (s : String) : Bool :=
  s == "connected" || s == "static" || (v.lookup s).isSome || (s == "bgp" && env.bgpAs)

/-- `sp_name` (`netsim/modules/_routing.py:614`) -/
def riName (s : String) : String := if s = "ripv2" then "rip" else s

/-- The imports created in `netsim/modules/_routing.py:605-615` -/
def riAuto (env : RiEnv) (v : List (String × RiProto)) (srcs : List String) : Option (List (String × RiVal)) :=
  srcs.foldl
    (fun d s => if riVrfProto env v s || (env.proto == "bgp" && env.keys.contains s) then
      some (setKey (d.getD []) (riName s) (.dict none true)) else d)
    none

/-- The loop body in `netsim/modules/_routing.py:596-622` (`process_imports`).  `'import' in True` is a type error, and `s_proto` is
not bound when an explicit import is rejected.  `vdata[proto]` creates an empty dictionary. -/
def riVrf (env : RiEnv) (srcs : List String) (st : RiPol) (v : List (String × RiProto)) : Option (RiPol × List (String × RiProto)) :=
  if !riVrfProto env v env.proto then some (st, v)
  else
    match v.lookup env.proto with
    | some (.flag _) => none
    | some (.data (some d)) =>
      if env.feat.vrfAware then (riCheck env st d).map (fun r => (r.1, setKey v env.proto (.data (some r.2)))) else none
    | _ =>
      let v' := setKey v env.proto (.data none)
      if env.feat.vrfAware && env.feat.truthy then some (st, setKey v env.proto (.data (riAuto env v' srcs))) else some (st, v')

/-- The loop over VRFs (`netsim/modules/_routing.py:596-622`) -/
def riVrfs (env : RiEnv) (srcs : List String) : RiPol → List (String × List (String × RiProto)) → Option (RiPol × List (String × List (String × RiProto)))
  | st, [] => some (st, [])
  | st, (n, v) :: l => do
    let a ← riVrf env srcs st v
    let b ← riVrfs env srcs a.1 l
    some (b.1, (n, a.2) :: b.2)

/-- The data of a node used in `process_imports` (`netsim/modules/_routing.py:587-596`): global imports (empty when there are none)
and VRFs -/
structure RiNode where
  imp : List (String × RiVal)
  vrfs : List (String × List (String × RiProto))
  deriving Repr, DecidableEq

/-- `netsim/modules/_routing.py:587-622` (`process_imports`) -/
def riProcess (env : RiEnv) (srcs : List String) (st : RiPol) (n : RiNode) : Option (RiPol × RiNode) := do
  let a ← if n.imp.isEmpty then some (st, n.imp) else riCheck env st n.imp
  let b ← riVrfs env srcs a.1 n.vrfs
  some (b.1, { imp := a.2, vrfs := b.2 })

/-- The list of routing protocols in `netsim/modules/_routing.py:636` -/
def riProtocols : List String := ["bgp", "ospf", "isis", "ripv2", "eigrp"]

/-- The loop body in `netsim/modules/_routing.py:636-653` (`remove_vrf_imports`); only a dictionary has `get`. -/
def riRemoveOne (p : String) (st : List (String × RiProto) × Nat) (rp : String) : Option (List (String × RiProto) × Nat) :=
  match st.1.lookup rp with
  | some (.data (some d)) =>
    match d.lookup p with
    | none => some st
    | some (.dict _ true) => some (setKey st.1 rp (.data (some (popKey d p))), st.2)
    | some (.dict _ false) => some (st.1, st.2 + 1)
    | some _ => none
  | _ => some st

/-- `netsim/modules/_routing.py:635-653` (`remove_vrf_imports`) -/
def riRemove (p : String) (v : List (String × RiProto)) : Option (List (String × RiProto) × Nat) :=
  riProtocols.foldlM (riRemoveOne p) (v, 0)

/-- What happens in a VRF in which the protocol is not active (`netsim/modules/_routing.py:288-290`) -/
def riDrop (p : String) (v : List (String × RiProto)) : Option (List (String × RiProto) × Nat) :=
  (riRemove p v).map (fun r => (popKey r.1 p, r.2))

/-- Default route of a routing protocol instance (`netsim/modules/_routing.py:668-694`, `netsim/modules/ospf.yml:33-36`): a boolean
value or a dictionary with optional `enabled` flag and routing policy -/
inductive RdVal where
  | no
  | yes
  | dict (enabled : Bool) (policy : Option String)
  deriving Repr, DecidableEq

/-- Device feature `<proto>.default` (`netsim/modules/_routing.py:680-689`): missing or false, true, or a (non-empty) dictionary with the
value of `policy` -/
inductive RdFeat where
  | off
  | on
  | dict (policy : Bool)
  deriving Repr, DecidableEq

/-- `netsim/modules/_routing.py:661-695` (`default_route_adjust`); `none` means there is no default route setting. -/
def rdAdjust (env : RiEnv) (feat : RdFeat) (st : RiPol) : Option RdVal → RiPol × Option RdVal
  | none => (st, none)
  | some .no => (st, none)
  | some v =>
    let w := match v with
      | .yes => RdVal.dict true none
      | v => v
    if feat = .off then ({ st with errors := st.errors + 1 }, some w)
    else
      match w with
      | .dict _ (some p) =>
        if feat = .dict true then (riAddPolicy env st p, some w) else ({ st with errors := st.errors + 1 }, some w)
      | _ => (st, some w)

/-- `netsim/modules/_routing.py:698-715` (`process_default_route`): the global instance and then the instances in VRFs -/
def rdProcess (env : RiEnv) (feat : RdFeat) : RiPol → List (Option RdVal) → RiPol × List (Option RdVal)
  | st, [] => (st, [])
  | st, v :: l =>
    let a := rdAdjust env feat st v
    let b := rdProcess env feat a.1 l
    (b.1, a.2 :: b.2)

end Netlab
