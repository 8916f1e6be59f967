import Verif.Model.Box
/-!
# Commands executed on lab devices, in tools and on the host

`netsim/outputs/common.py:13-75`, `netsim/cli/connect.py:55-219`, `netsim/cli/external_commands.py:74-164`, `netsim/cli/up.py:355-366`, `netsim/cli/capture.py:89-96`,
`netsim/cli/show_commands/providers.py:23-48`

Log messages are left out.
-/

namespace Netlab

/-! ### Inventory data of a node -/

/-- Data of a provider (`netsim/outputs/common.py:14-25`) -/
structure AcProvider where
  inventory : List (String × Val) := []
  portMap : List (String × String) := []
  forwarded : List (String × Int) := []

/-- Values that are true in Python (`netsim/outputs/common.py:57`) -/
def acTrue : Val → Bool
  | .null => false
  | .bool b => b
  | .int i => i != 0
  | .str s => s != ""
  | .list l => !l.isEmpty
  | .dict d => !d.isEmpty

/-- Set a key when the value is true (`netsim/outputs/common.py:57-58`) -/
def acSetTrue (host : List (String × Val)) (k : String) (v : Option Val) : List (String × Val) :=
  match v with
  | none => host
  | some v => if acTrue v then setKey host k v else host

/-- The management IPv4 address of a node (`netsim/outputs/common.py:53-54`); `mgmt` is a dictionary -/
def acMgmt (node : List (String × Val)) : Option Val :=
  match node.lookup "mgmt" with
  | some (.dict d) => d.lookup "ipv4"
  | _ => none

/-- `netsim/outputs/common.py:21-25`: forwarded ports; no value when a port is forwarded to a host without a numeric ID -/
def acPorts (p : AcProvider) (id : Option Val) : List (String × String) → List (String × Val) → Option (List (String × Val))
  | [], host => some host
  | (k, v) :: r, host =>
    match p.forwarded.lookup k with
    | none => acPorts p id r host
    | some f =>
      match id with
      | some (.int i) => acPorts p id r (setKey host v (.int (f + i)))
      | _ => none

/-- `netsim/outputs/common.py:13-25` (`provider_inventory_settings`).  The port map is assumed not to change the ID of the host. -/
def acProviderSettings (p : AcProvider) (host : List (String × Val)) : Option (List (String × Val)) :=
  let h := p.inventory.foldl (fun h x => setKey h x.1 x.2) host
  acPorts p (h.lookup "id") p.portMap h

/-- `netsim/outputs/common.py:37-65` (`adjust_inventory_host`) with the default translation table -/
def acHost (groupVars : List (String × Val)) (ignore : List String) (p : AcProvider) (node : List (String × Val)) : Option (List (String × Val)) :=
  let h0 := groupVars.foldl (fun h x => setKey h x.1 x.2) []
  let h1 := acSetTrue (acSetTrue (acSetTrue h0 "ansible_host" (acMgmt node)) "ansible_host" (node.lookup "hostname")) "id" (node.lookup "id")
  acProviderSettings p ((node.filter (fun x => !ignore.contains x.1)).foldl (fun h x => setKey h x.1 x.2) h1)

/-! ### Commands executed on devices -/

/-- Python `arg.replace('$@',v)` (`netsim/cli/connect.py:138`) -/
def acSubst (v : List Char) : List Char → List Char
  | [] => []
  | '$' :: '@' :: r => v ++ acSubst v r
  | c :: r => c :: acSubst v r

/-- Python `'$@' in arg` (`netsim/cli/connect.py:137`) -/
def acHasArgs : List Char → Bool
  | [] => false
  | '$' :: '@' :: _ => true
  | _ :: r => acHasArgs r

/-- Python `' '.join(l)` (`netsim/cli/connect.py:138`) -/
def acJoin : List (List Char) → List Char
  | [] => []
  | [x] => x
  | x :: y :: r => x ++ ' ' :: acJoin (y :: r)

/-- `netsim/cli/connect.py:133-146` (`create_show_command`) -/
def acShow (template rest : List (List Char)) : List (List Char) :=
  let cmd := template.map (fun a => if acHasArgs a then acSubst (acJoin rest) a else a)
  if template.any acHasArgs then cmd else cmd ++ rest

/-- `netsim/cli/connect.py:130-131` (`quote_list`) -/
def acQuote (args : List (List Char)) : List (List Char) := args.map (fun a => if a.contains ' ' then '"' :: a ++ ['"'] else a)

/-- `netsim/cli/connect.py:148-161` (`create_command_list`); no value on a fatal error.  The template is empty when the device has no `netlab_show_command`. -/
def acCommand (template args rest : List (List Char)) : Option (List (List Char)) :=
  if rest ≠ [] ∧ args ≠ [] then none
  else if args ≠ [] then some (if template ≠ [] then acQuote (acShow template args) else "show".toList :: args)
  else some rest

/-- Parameters of an SSH session (`netsim/cli/connect.py:93-113`) -/
structure AcSsh where
  host : String
  user : Option String := none
  pass : Option String := none
  key : Option String := none
  port : Option String := none
  extra : List String := []

/-- `netsim/cli/connect.py:88-113` (`ssh_connect`): the executed command -/
def acSshArgs (s : AcSsh) (rest : List String) : List String :=
  (match s.pass with | some p => ["sshpass", "-p", p] | none => []) ++
    ["ssh", "-o", "UserKnownHostsFile=/dev/null", "-o", "StrictHostKeyChecking=no", "-o", "LogLevel=ERROR"] ++ s.extra ++
    (match s.key with | some k => ["-i", k] | none => []) ++ (match s.port with | some p => ["-p", p] | none => []) ++
    (match s.user with | some u => [u ++ "@" ++ s.host] | none => [s.host]) ++ rest

/-- `netsim/cli/connect.py:55-68` (`docker_connect`): the executed command; `rest` is the joined command -/
def acDockerArgs (host : String) (shell : Option (List String)) (rest : Option String) : List String :=
  ["docker", "exec", "-it", host] ++ (match shell with | some s => s | none => if rest.isSome then ["bash"] else ["bash", "-il"]) ++
    (match rest with | some r => ["-c", r] | none => [])

/-- Connection methods (`netsim/cli/connect.py:179-186`) -/
inductive AcMethod where
  | docker
  | ssh
  | fatal
  deriving DecidableEq

/-- `netsim/cli/connect.py:175-186` (`connect_to_node`): the connection method; an empty text is a missing value -/
def acMethod (console conn : String) : AcMethod :=
  let c := if console ≠ "" then console else conn
  if c = "docker" then .docker
  else if c ∈ ["paramiko", "ssh", "network_cli", "netconf", "httpapi"] ∨ c = "" then .ssh
  else .fatal

/-- `netsim/cli/connect.py:188-219` (`connect_to_tool`) for a tool with commands: the executed command (after the evaluation of f-strings); no value is a crash -/
def acTool (cmds : List (List Char)) (rest : List (List Char)) : Option (List (List Char)) :=
  let r := acJoin rest
  (cmds.getLast?).map (fun c => ["bash".toList, "-c".toList, c ++ (if r ≠ [] then ' ' :: r else r)])

/-! ### Commands executed on the host -/

/-- Results of `run_command` (`netsim/cli/external_commands.py:80`) -/
inductive AcRes where
  | bool (b : Bool)
  | int (i : Int)
  | text (s : String)
  deriving DecidableEq

/-- Python truth value of a result (`netsim/cli/external_commands.py:127-127`) -/
def AcRes.isTrue : AcRes → Bool
  | .bool b => b
  | .int i => i != 0
  | .text s => s != ""

/-- Python `result == n` (`netsim/cli/up.py:361-363`): Boolean values are numbers. -/
def AcRes.eqInt (r : AcRes) (n : Int) : Bool :=
  match r with
  | .bool b => (if b then 1 else 0) == n
  | .int i => i == n
  | .text _ => false

/-- Parameters of `run_command` (`netsim/cli/external_commands.py:74-80`) and the global settings it uses -/
structure AcFlags where
  debug : Bool := false
  dry : Bool := false
  check : Bool := false
  stdout : Bool := false
  exitcode : Bool := false
  always : Bool := false

/-- The result of a command that was started (`netsim/cli/external_commands.py:103-123`): its exit code and output, or no value when the command cannot be started -/
def acResult (f : AcFlags) (r : Option (Int × String)) : AcRes :=
  match r with
  | none => .bool false
  | some (code, out) =>
    if f.exitcode then .int code
    else if code ≠ 0 then .bool false
    else if ¬ f.check then .bool true
    else if f.stdout then .text out
    else .bool (out != "")

/-- `netsim/cli/external_commands.py:74-123` (`run_command`): the result, and the command that was started.  `run` is the operating system. -/
def acRun (run : List String → Option (Int × String)) (f : AcFlags) (cmd : List String) : AcRes × Option (List String) :=
  if f.debug then (.bool true, none)
  else if f.dry ∧ ¬ f.always then (.bool true, none)
  else if cmd = [] then (.bool true, none)
  else (acResult f (run cmd), some cmd)

/-- A probe: a command, a list of probes, or a command with an error message (`netsim/cli/external_commands.py:125-143`) -/
inductive AcProbe where
  | cmd (c : List String)
  | list (l : List AcProbe)
  | box (c : List String)

/-- Results of a probe (`netsim/cli/external_commands.py:125-143`) -/
inductive AcProbeRes where
  | ok
  | fail
  | fatal
  deriving DecidableEq

mutual
/-- `netsim/cli/external_commands.py:125-143` (`test_probe`); `ok` is the truth value of the result of a command -/
def acProbe (ok : List String → Bool) (quiet : Bool) : AcProbe → AcProbeRes
  | .cmd c => if ok c then .ok else .fail
  | .list l => acProbes ok quiet l
  | .box c => if ok c then .ok else if quiet then .fail else .fatal

/-- The loop in `netsim/cli/external_commands.py:129-132` -/
def acProbes (ok : List String → Bool) (quiet : Bool) : List AcProbe → AcProbeRes
  | [] => .ok
  | p :: r =>
    match acProbe ok quiet p with
    | .ok => acProbes ok quiet r
    | x => x
end

/-- `netsim/cli/show_commands/providers.py:35-48` (`get_provider_status`) in quiet mode, started with `n` successful probes -/
def acStatusFrom (ok : List String → Bool) : Nat → List AcProbe → String
  | _, [] => "OK"
  | n, p :: r => if acProbe ok true p = .ok then acStatusFrom ok (n + 1) r else if n ≠ 0 then "FAIL" else "N/A"

/-- `netsim/cli/show_commands/providers.py:23-48` (`get_provider_status`) -/
def acStatus (ok : List String → Bool) (probes : List AcProbe) : String := acStatusFrom ok 0 probes

/-- What `netlab up --validate` reports (`netsim/cli/up.py:360-364`) -/
inductive AcValidate where
  | nothing
  | failed
  | warning
  deriving DecidableEq

/-- `netsim/cli/up.py:355-364` -/
def acUpValidate (r : AcRes) : AcValidate := if r.eqInt 1 then .failed else if r.eqInt 3 then .warning else .nothing

end Netlab
