import Verif.Model.RoutingObjects
/-!
# Routing policies on nodes (`netsim/modules/routing.py`)

Normalization of policy entries, device support for routing policies, and import of the filters policies refer to.
-/

namespace Netlab

/-- Value of an attribute of a policy entry (`netsim/modules/routing.py:74-76`) -/
inductive RmVal where
  | text (s : String)
  | num (n : Int)
  | dict (d : List (String × String))
  | other
  deriving Repr, DecidableEq

/-- Value of `set` or `match` before validation (`netsim/modules/routing.py:40-46`): a dictionary or anything else, including null -/
inductive RmSub where
  | dict (d : List (String × RmVal))
  | other
  deriving Repr, DecidableEq

/-- Entry of a routing policy that is a dictionary (`netsim/modules/routing.py:54-58`); `top` are all attributes apart from `set` and `match`. -/
structure RmEntry where
  top : List (String × RmVal) := []
  set : Option RmSub := none
  mtch : Option RmSub := none
  deriving Repr, DecidableEq

/-- One step of the loop in `netsim/modules/routing.py:41-46`: the attributes of the entry and the target dictionary; `none`: the
target is not a dictionary (the program crashes). -/
def shortcutStep (st : List (String × RmVal) × Option RmSub) (k : String) : Option (List (String × RmVal) × Option RmSub) :=
  match st.1.lookup k with
  | none => some st
  | some v =>
    match st.2 with
    | none => some (popKey st.1 k, some (.dict [(k, v)]))
    | some (.dict d) => some (popKey st.1 k, some (.dict (setKey d k v)))
    | some .other => none

/-- `netsim/modules/routing.py:40-46` (`policy_shortcut`) -/
def policyShortcut (kws : List String) (st : List (String × RmVal) × Option RmSub) : Option (List (String × RmVal) × Option RmSub) :=
  kws.foldlM shortcutStep st

/-- `netsim/modules/routing.py:74-76`: AS path prepending given as a text or a number -/
def fixPrepend : Option RmSub → Option RmSub
  | some (.dict d) =>
    match d.lookup "prepend" with
    | some (.text s) => some (.dict (setKey d "prepend" (.dict [("path", s)])))
    | some (.num n) => some (.dict (setKey d "prepend" (.dict [("path", toString n)])))
    | _ => some (.dict d)
  | x => x

/-- `netsim/modules/routing.py:24-35` (`normalize_routing_entry`) -/
def entryDefaults (top : List (String × RmVal)) (idx : Nat) : List (String × RmVal) :=
  let top := if (top.lookup "action").isSome then top else setKey top "action" (.text "permit")
  if (top.lookup "sequence").isSome then top else setKey top "sequence" (.num ((idx + 1) * 10))

/-- `netsim/modules/routing.py:54-80` (`normalize_policy_entry`); `setKw` and `matchKw` are lists of shortcuts (`netsim/modules/routing.yml:70-72`). -/
def normalizePolicy (setKw matchKw : List String) (e : RmEntry) (idx : Nat) : Option RmEntry := do
  let a ← policyShortcut setKw (e.top, e.set)
  let b ← policyShortcut matchKw (a.1, e.mtch)
  return { top := entryDefaults b.1 idx, set := fixPrepend a.2, mtch := b.2 }

/-- Keyword-specific data in device features (`netsim/modules/routing.py:156-163`) -/
inductive RmKw where
  | flag (b : Bool)
  | opts (d : List (String × Bool))
  deriving Repr, DecidableEq

/-- Supported keywords (`netsim/modules/routing.py:148-155`): a list or a dictionary -/
inductive RmFeat where
  | list (l : List String)
  | dict (d : List (String × RmKw))
  deriving Repr, DecidableEq

/-- `netsim/modules/routing.py:156-163` (`is_kw_supported`) -/
def kwSupported (kw : String) : RmFeat → Bool
  | .list l => l.contains kw
  | .dict d =>
    match d.lookup kw with
    | none => false
    | some (.flag b) => b
    | some (.opts o) => !o.isEmpty

/-- Errors for one keyword with a value (`netsim/modules/routing.py:187-213`) -/
def kwErrors (f : RmFeat) (kw : String) (v : RmVal) : Nat :=
  if !kwSupported kw f then 1
  else match f, v with
    | .dict d, .dict o =>
      match d.lookup kw with
      | some (.opts s) => (o.filter (fun x => !((s.lookup x.1).getD false))).length
      | _ => 0
    | _, _ => 0

/-- A validated policy entry (`netsim/modules/routing.yml:81-119`); filters are names. -/
structure RmBody where
  set : List (String × RmVal) := []
  mtch : List (String × String) := []
  deriving Repr, DecidableEq

/-- Routing policy features of a device (`netsim/modules/routing.py:173-175`) -/
structure RmFeatures where
  set : RmFeat := .dict []
  mtch : RmFeat := .dict []
  deriving Repr, DecidableEq

/-- `netsim/modules/routing.py:172-215` (`check_routing_policy`): number of errors -/
def policyErrors (f : Option RmFeatures) (l : List (RpEntry RmBody)) : Nat :=
  match f with
  | none => 1
  | some f => (l.map (fun e =>
      (e.body.set.map (fun x => kwErrors f.set x.1 x.2)).sum + (e.body.mtch.map (fun x => kwErrors f.mtch x.1 (.text x.2))).sum)).sum

/-- Types of filters (`netsim/modules/routing.py:261-266`) -/
inductive RFilt where
  | pfx
  | aspath
  | community
  deriving Repr, DecidableEq

/-- `netsim/modules/routing.py:261-266` (`match_object_map`) -/
def matchObjects : List (String × RFilt) := [("prefix", .pfx), ("nexthop", .pfx), ("aspath", .aspath), ("community", .community)]

/-- Routing filters of a node (`netsim/modules/routing.py:227`); `none` is a null value. -/
structure RpTables (α : Type) where
  pfx : List (String × Option (RObj α)) := []
  aspath : List (String × Option (RObj α)) := []
  community : List (String × Option (RObj α)) := []
  deriving Repr, DecidableEq

/-- `node.routing[o_name]` (`netsim/modules/routing.py:227`) -/
def RpTables.get {α : Type} (x : RpTables α) : RFilt → List (String × Option (RObj α))
  | .pfx => x.pfx
  | .aspath => x.aspath
  | .community => x.community

/-- `node.routing[o_name][pname] = v` (`netsim/modules/routing.py:235`) -/
def RpTables.set {α : Type} (x : RpTables α) (t : RFilt) (n : String) (v : Option (RObj α)) : RpTables α :=
  match t with
  | .pfx => { x with pfx := setKey x.pfx n v }
  | .aspath => { x with aspath := setKey x.aspath n v }
  | .community => { x with community := setKey x.community n v }

/-- Global routing objects, device support (`netsim/modules/routing.py:137-146` and `netsim/modules/routing.py:172-182`) -/
structure RpEnv (α : Type) where
  policies : String → Option (List (RpEntry RmBody))
  filters : RFilt → String → Option (List (RpEntry α))
  feat : Option RmFeatures
  objOk : RFilt → Bool

/-- Routing objects of a node, number of errors (`netsim/modules/routing.py:222-256`) -/
structure RpState (α : Type) where
  pols : List (String × Option (List (RpEntry RmBody)))
  filts : RpTables α
  errors : Nat := 0
  deriving Repr, DecidableEq

/-- `netsim/modules/routing.py:268-284` (`import_policy_filters`, the inner loop body): `none` means a crash. -/
def importFilter {α : Type} (env : RpEnv α) (st : RpState α) (x : RFilt × String) : Option (RpState α) :=
  let node := ((st.filts.get x.1).lookup x.2).join
  match (if x.1 = .community then importCommunity node (env.filters x.1 x.2) else importObject node (env.filters x.1 x.2)) with
  | (.crash, _) => none
  | (.missing, _) => some { st with errors := st.errors + 1 }
  | (.unchanged, _) => some st
  | (.imported r, o) => some { st with filts := st.filts.set x.1 x.2 o, errors := st.errors + if r.isEmpty || env.objOk x.1 then 0 else 1 }

/-- Filters used in an entry, in the order of processing (`netsim/modules/routing.py:271-276`) -/
def entryFilters (e : RpEntry RmBody) : List (RFilt × String) :=
  matchObjects.filterMap (fun m => (e.body.mtch.lookup m.1).map (fun n => (m.2, n)))

/-- `netsim/modules/routing.py:268-285` (`import_policy_filters`) -/
def importFilters {α : Type} (env : RpEnv α) (l : List (RpEntry RmBody)) (st : RpState α) : Option (RpState α) :=
  (l.flatMap entryFilters).foldlM (importFilter env) st

/-- Entries of an object (`netsim/modules/routing.py:242`) -/
def RObj.entries {α : Type} : RObj α → List (RpEntry α)
  | .list l => l
  | .expanded l => l

/-- Check and import of related objects (`netsim/modules/routing.py:380-384`) -/
def checkRelated {α : Type} (env : RpEnv α) (l : List (RpEntry RmBody)) (st : RpState α) : Option (RpState α) :=
  importFilters env l { st with errors := st.errors + policyErrors env.feat l }

/-- `call_dispatch` (`netsim/modules/routing.py:375-384`) for a policy; a policy that does not exist is null, and the check or
`import_policy_filters` fails. -/
def processPolicy {α : Type} (env : RpEnv α) (st : RpState α) (n : String) : Option (RpState α) :=
  match importObject (((st.pols.lookup n).join).map .list) (env.policies n) with
  | (.imported r, _) => (importFilters env r { st with pols := setKey st.pols n (some r) }).bind (checkRelated env r)
  | (.unchanged, some o) => checkRelated env o.entries st
  | _ => none

/-- `call_dispatch` (`netsim/modules/routing.py:375-384`) for a filter: import and check; there are no related objects. -/
def processFilter {α : Type} (env : RpEnv α) (t : RFilt) (st : RpState α) (n : String) : Option (RpState α) :=
  let st' := { st with errors := st.errors + if env.objOk t then 0 else 1 }
  match importObject ((st.filts.get t).lookup n).join (env.filters t n) with
  | (.crash, _) => none
  | (.missing, _) => some { st' with errors := st'.errors + 1 }
  | (.unchanged, _) => some st'
  | (.imported _, o) => some { st' with filts := st.filts.set t n o }

/-- Filters of one type (`netsim/modules/routing.py:373-406`, `process_routing_data`) -/
def processFilters {α : Type} (env : RpEnv α) (st : RpState α) (t : RFilt) : Option (RpState α) :=
  ((st.filts.get t).map (·.1)).foldlM (processFilter env t) st

/-- `netsim/modules/routing.py:1088-1092` (`node_pre_transform`) without static routes -/
def processRouting {α : Type} (env : RpEnv α) (st : RpState α) : Option (RpState α) :=
  ((st.pols.map (·.1)).foldlM (processPolicy env) st).bind (fun st => [RFilt.pfx, .aspath, .community].foldlM (processFilters env) st)

end Netlab
