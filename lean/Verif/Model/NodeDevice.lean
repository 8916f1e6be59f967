import Verif.Model.Box
/-!
# Devices, providers and images of nodes (`netsim/augment/nodes.py:191-368`)

The topology and default providers are the same at this point (`netsim/augment/topology.py:63-66`).  Node names are keys of the dictionary of nodes.
-/

namespace Netlab

/-- Settings used in `netsim/augment/nodes.py:191-318`: the topology provider, the dictionaries of providers and devices, and the default device (an empty
dictionary when there is none) -/
structure NdEnv where
  top : String
  provs : List (String × Val)
  devs : List (String × Val)
  defdev : Val

/-- Result of a function: `err` is a reported error, `fatal` is `log.fatal` or an exception (`netsim/augment/nodes.py:191-268`). -/
inductive NdRes (α : Type) where
  | ok (a : α)
  | err
  | fatal

/-- `k in x` for a dictionary (`netsim/augment/nodes.py:289`) -/
def ndHas (x : Option Val) (k : String) : Bool :=
  match x with
  | some (.dict d) => (d.lookup k).isSome
  | _ => false

/-- `x.get('a.b',None)` for a dictionary (`netsim/augment/nodes.py:220`) -/
def ndPath (d : List (String × Val)) (a b : String) : Option Val :=
  match d.lookup a with
  | some (.dict x) => x.lookup b
  | _ => none

/-- `netsim/augment/nodes.py:274-297` (`validate_node_provider`): the node and the secondary providers; `none` is an error.  A provider that is not a string is
reported as an error. -/
def ndProvider (env : NdEnv) (n : List (String × Val)) (sec : List String) : Option (List (String × Val) × List String) :=
  match n.lookup "provider" with
  | none => some (n, sec)
  | some (.str p) =>
    if p = env.top then some (popKey n "provider", sec)
    else if (env.provs.lookup p).isNone then none
    else if !ndHas (env.provs.lookup env.top) p then none
    else some (n, if sec.contains p then sec else sec ++ [p])
  | some _ => none

/-- `netsim/augment/nodes.py:192-193` -/
def ndDefault (env : NdEnv) (n : List (String × Val)) : List (String × Val) :=
  if (n.lookup "device").isNone then setKey n "device" env.defdev else n

/-- `netsim/augment/nodes.py:217-218`: device-specific provider -/
def ndDevProv (env : NdEnv) (dev n : List (String × Val)) : List (String × Val) :=
  match dev.lookup "provider" with
  | some (.str p) => if p = env.top then n else setKey n "provider" (.str p)
  | some v => setKey n "provider" v
  | none => n

/-- `netsim/augment/nodes.py:220-221`: default modules of the device -/
def ndDevMod (dev n : List (String × Val)) : List (String × Val) :=
  match ndPath dev "node" "module" with
  | some m => if m.truthy && (n.lookup "module").isNone then setKey n "module" m else n
  | none => n

/-- `netsim/augment/nodes.py:191-226` (`find_node_device`) without the changes of the attribute dictionaries (`netsim/augment/nodes.py:223-224`); devices
accepted by `must_be_device` are the keys of the dictionary of devices (`netsim/data/validate.py:718`). -/
def ndDevice (env : NdEnv) (n : List (String × Val)) : NdRes (List (String × Val)) :=
  match (ndDefault env n).lookup "device" with
  | some (.str d) =>
    if d = "" then .err
    else match env.devs.lookup d with
      | none => .err
      | some (.dict dev) => .ok (ndDevMod dev (ndDevProv env dev (ndDefault env n)))
      | some _ => .fatal
  | _ => .err

/-- `netsim/augment/devices.py:108-109` (`get_provider`) -/
def ndGetProv (env : NdEnv) (n : List (String × Val)) : Val := (n.lookup "provider").getD (.str env.top)

/-- `netsim/augment/nodes.py:234-239`: provider settings of the device are copied into the node -/
def ndProvData (p : String) (pdata n : List (String × Val)) : NdRes (List (String × Val)) :=
  match pdata.lookup "node" with
  | none => .ok n
  | some (.dict x) =>
    match n.lookup p with
    | none => .ok (setKey n p (.dict x))
    | some (.dict y) => .ok (setKey n p (.dict (mergeDict x y)))
    | some _ => .fatal
  | some _ => .fatal

/-- `netsim/augment/nodes.py:241-268`: the image -/
def ndBox (dev pdata n : List (String × Val)) : NdRes (List (String × Val)) :=
  if ((n.lookup "box").getD .null).truthy then .ok n
  else match n.lookup "image" with
    | some i => .ok (popKey (setKey n "box" i) "image")
    | none =>
      match dev.lookup "image" with
      | some (.str i) => .ok (setKey n "box" (.str i))
      | some _ => .err
      | none =>
        match pdata.lookup "image" with
        | some (.str i) => .ok (setKey n "box" (.str i))
        | some _ => .err
        | none => .err

/-- `netsim/augment/devices.py:80-87` (`get_provider_data`): `none` when the value is not a dictionary -/
def ndPdata (dev : List (String × Val)) (p : String) : Option (List (String × Val)) :=
  match dev.lookup p with
  | none => some []
  | some (.dict d) => some d
  | some _ => none

/-- `netsim/augment/nodes.py:231-268` (`find_node_image`) for a node with a known device -/
def ndImage (env : NdEnv) (n : List (String × Val)) : NdRes (List (String × Val)) :=
  match n.lookup "device", ndGetProv env n with
  | some (.str d), .str p =>
    match env.devs.lookup d with
    | some (.dict dev) =>
      match ndPdata dev p with
      | some pdata =>
        match ndProvData p pdata n with
        | .ok n' => ndBox dev pdata n'
        | .err => .err
        | .fatal => .fatal
      | none => .fatal
    | _ => .fatal
  | _, _ => .fatal

/-- A node in `netsim/augment/nodes.py:310-318`: the node and the secondary providers.  Changes of a node with errors are not modelled. -/
def ndNode (env : NdEnv) (n : List (String × Val)) (sec : List String) : NdRes (List (String × Val)) × List String :=
  match ndProvider env n sec with
  | none => (.err, sec)
  | some x =>
    match ndDevice env x.1 with
    | .ok n' => (ndImage env n', x.2)
    | .err => (.err, x.2)
    | .fatal => (.fatal, x.2)

/-- `netsim/augment/nodes.py:306-318` (`augment_node_provider_data`): nodes, secondary providers and the number of errors; `none` is a fatal error. -/
def ndNodes (env : NdEnv) : List (String × List (String × Val)) → List String → Option (List (String × List (String × Val)) × List String × Nat)
  | [], sec => some ([], sec, 0)
  | n :: r, sec =>
    match ndNode env n.2 sec with
    | (.fatal, _) => none
    | (.ok m, s) => (ndNodes env r s).map (fun x => ((n.1, m) :: x.1, x.2))
    | (.err, s) => (ndNodes env r s).map (fun x => (n :: x.1, x.2.1, x.2.2 + 1))

/-- `netsim/augment/devices.py:92-103` (`get_consolidated_device_data`) -/
def ndDevData (provs dev pdata : List (String × Val)) : List (String × Val) :=
  provs.foldl (fun d p => popKey d p.1) (mergeDict dev pdata)

/-- One attribute in `netsim/augment/nodes.py:349-351` and in `netsim/augment/nodes.py:354-356` -/
def ndCopy (src n : List (String × Val)) (k : String) : List (String × Val) :=
  match src.lookup k with
  | some v => if (n.lookup k).isNone then setKey n k v else n
  | none => n

/-- Daemon settings in `netsim/augment/nodes.py:358-362`; `daemon_parent` is an empty dictionary when the device does not have it. -/
def ndDaemon (data n : List (String × Val)) : List (String × Val) :=
  if ((data.lookup "daemon").getD .null).truthy then
    let m := setKey (setKey n "_daemon" (.bool true)) "_daemon_parent" ((data.lookup "daemon_parent").getD (.dict []))
    match data.lookup "daemon_config" with
    | some c => setKey m "_daemon_config" c
    | none => m
  else n

/-- Sanity check in `netsim/augment/nodes.py:366-368`: the node and the number of errors -/
def ndDaemonCheck (n : List (String × Val)) : List (String × Val) × Nat :=
  match n.lookup "_daemon_config" with
  | some (.dict _) => (n, 0)
  | some _ => (popKey n "_daemon_config", 1)
  | none => (n, 0)

/-- `netsim/augment/nodes.py:345-368` (`augment_node_device_data`): `attrs` are names of node attributes, `dev` and `pdata` are device and provider data. -/
def ndAttrs (attrs : List String) (provs dev pdata n : List (String × Val)) : List (String × Val) × Nat :=
  let data := ndDevData provs dev pdata
  let n1 := attrs.foldl (ndCopy data) n
  let n2 := match dev.lookup "node" with
    | some (.dict x) => (x.map (·.1)).foldl (ndCopy x) n1
    | _ => n1
  ndDaemonCheck (ndDaemon data n2)

end Netlab
