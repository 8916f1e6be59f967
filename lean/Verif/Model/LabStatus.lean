import Verif.Model.Box

/-!
The lab status file (`~/.netlab/status.yaml`), the `netlab.lock` file and the commands that use
them, as a transition system.  Every command is a list of atomic actions executed by a process; the
scheduler picks any live process for the next step, and any process can disappear (crash, Ctrl-C,
`log.fatal`, a failed probe) between any two steps.  The lab status file is changed in five steps
(acquire the file lock, read, truncate, write, release), because `open(...,'w')` truncates the file
before the new content is written.
-/

namespace Netlab

/-- A lab instance in the status file: `netsim/cli/__init__.py:306-350`.  The log and timestamp
fields are not modelled. -/
structure LabEntry where
  dir : String
  status : String
  name : String
  providers : List String
deriving DecidableEq, Repr

/-- The YAML document in the status file: `netsim/utils/status.py:52-58`. -/
abbrev LabTable := List (String × LabEntry)

/-- What a `change_status` callback does: `netsim/cli/up.py:100-127`, `netsim/cli/__init__.py:355-374`,
`netsim/utils/status.py:83-88`. -/
inductive StatusOp
  | start (name : String)
  | status (text : String)
  | provider (text : String) (provider : String)
  | logLine
  | remove
deriving DecidableEq, Repr

/-- The entry `lab_status_update` starts from: `netsim/cli/__init__.py:314-318`. -/
def entryOrNew (lab cwd : String) (st : LabTable) : LabEntry :=
  (st.lookup lab).getD ⟨cwd, "", "", []⟩

/-- `lab_status_update`, `netsim/cli/__init__.py:306-350`: nothing in dry-run mode; otherwise find or
create the entry of the lab, and change it. -/
def labStatusUpdate (dry : Bool) (lab cwd : String) (f : LabEntry → LabEntry) (st : LabTable) : LabTable :=
  if dry then st else setKey st lab (f (entryOrNew lab cwd st))

/-- `lab_status_start`, `netsim/cli/up.py:100-114`; the second component is `err_conflict`. -/
def labStatusStart (dry : Bool) (lab cwd name : String) (st : LabTable) : LabTable × Bool :=
  match st.lookup lab with
  | some e =>
    if e.dir != cwd then
      (labStatusUpdate dry lab cwd (fun e => { e with status := "conflict" }) st, true)
    else
      (labStatusUpdate dry lab cwd
        (fun e => { e with
          status := "restarting lab"
          name := name
          providers := [] }) st, false)
  | none =>
    (labStatusUpdate dry lab cwd
      (fun e => { e with
        status := "starting lab"
        name := name
        providers := [] }) st, false)

/-- The callbacks: `netsim/cli/up.py:116-127` (`status_start_lab`, `status_start_provider`),
`netsim/cli/__init__.py:355-374` (`lab_status_change`, `lab_status_log`),
`netsim/utils/status.py:83-88` (`remove_lab_status`, which does not look at the dry-run flag). -/
def applyOp (dry : Bool) (lab cwd : String) (op : StatusOp) (st : LabTable) : LabTable × Bool :=
  match op with
  | .start name => labStatusStart dry lab cwd name st
  | .status t => (labStatusUpdate dry lab cwd (fun e => { e with status := t }) st, false)
  | .provider t p =>
    (labStatusUpdate dry lab cwd
      (fun e => { e with
        status := t
        providers := e.providers ++ [p] }) st, false)
  | .logLine => (labStatusUpdate dry lab cwd id st, false)
  | .remove => (popKey st lab, false)

/-- Actions of the commands: `netsim/cli/up.py:296-351`, `netsim/cli/create.py:64-99`,
`netsim/cli/down.py:169-202`, `netsim/cli/initial.py:98-118`. -/
inductive Act
  | checkExisting
  | unlockUser
  | checkWriteable
  | writeFiles
  | checkInstance
  | change (op : StatusOp)
  | lockDir
  | startWork
  | touchLock
  | checkMismatch (force confirm : Bool)
  | stopWork
  | removeUnlessMismatch
  | unlockDir
deriving DecidableEq, Repr

/-- Progress of `change_status`, `netsim/utils/status.py:37-66`. -/
inductive Phase
  | idle
  | locked
  | loaded (st : LabTable)
  | truncated (st : LabTable) (conflict : Bool)
  | written (conflict : Bool)
deriving DecidableEq, Repr

/-- A running command: `dir` is its current directory (after `change_lab_instance`,
`netsim/cli/__init__.py:188-209`), `lab` the lab instance of its topology (`netsim/utils/status.py:25-26`). -/
structure Proc where
  dir : String
  lab : String
  dry : Bool
  acts : List Act
  phase : Phase
  mismatch : Bool

/-- `netlab up` parameters that matter (`netsim/cli/up.py:296-351`): `--snapshot`, `--dry-run`, `--unlock`, number of output
formats beyond the provider configuration (which is always created), list of providers, and whether
the user aborts the `external` provider. -/
structure UpOpts where
  snapshot : Bool
  dry : Bool
  unlock : Bool
  outputs : Nat
  name : String
  providers : List String
  abort : Bool

/-- `netlab down` parameters (`netsim/cli/down.py:169-202`): `--dry-run`, `--force` (count ≥ 1, ≥ 2), answer to the confirmation
request, result of provider probes and of the commands stopping the lab. -/
structure DownOpts where
  dry : Bool
  force1 : Bool
  force2 : Bool
  confirm : Bool
  stopOk : Bool
  tools : Bool
  providers : List String

/-- Commands: `netsim/cli/up.py:296`, `netsim/cli/create.py:64`, `netsim/cli/initial.py:98`,
`netsim/cli/down.py:169`. -/
inductive Cmd
  | up (o : UpOpts)
  | create (unlock : Bool) (outputs : Nat)
  | initial
  | down (o : DownOpts)

/-- `create.run`, `netsim/cli/create.py:64-99`, with every output module calling `check_writeable`
before writing its file: `netsim/outputs/provider.py:20-22`, `netsim/outputs/yaml.py:30-31`,
`netsim/outputs/tools.py:77`, `netsim/outputs/ansible.py:296-297`, `netsim/outputs/devices.py:77`.  Files written
elsewhere (a YAML or JSON output with another name) are not lab files. -/
def createActs (unlock : Bool) : Nat → List Act
  | 0 => if unlock then [.unlockUser] else []
  | n + 1 => createActs unlock n ++ [.checkWriteable, .writeFiles]

/-- `start_provider_lab`, `netsim/cli/up.py:190-214`; the `external` provider hook is
`netsim/providers/external.py:23-37`.  `recreate_secondary_config` (`netsim/cli/up.py:219-228`), which rewrites the
configuration file of a secondary provider as a part of the lab start, is not modelled. -/
def providerActs (dry abort : Bool) (p : String) : List Act :=
  .change (.provider "starting provider" p) ::
  (if abort then [.unlockDir, .change .remove]
   else if dry then []
   else [.startWork, .change (.status "workload started")])

/-- The loop over the providers, `netsim/cli/up.py:332-338`. -/
def providersActs (dry : Bool) : List String → List Act
  | [] => []
  | p :: rest => providerActs dry false p ++ providersActs dry rest

/-- `run_up`, `netsim/cli/up.py:296-351`.  Provider probes, image checks and failing commands can
only end the process, which can happen at any time.  Configuration deployment and external tools are
represented by their status changes. -/
def upActs (o : UpOpts) : List Act :=
  (if o.snapshot || o.dry then [] else [.checkExisting]) ++
  (if o.snapshot then [] else createActs o.unlock (o.outputs + 1)) ++
  (if o.dry then [] else [.checkInstance]) ++
  [.change (.start o.name)] ++
  (if o.dry then [] else [.lockDir]) ++
  (if o.abort then providerActs o.dry true "external"
   else
     providersActs o.dry o.providers ++
     (if o.dry then []
      else [.change (.status "deploying initial configuration"),
            .change (.status "initial configuration complete"),
            .change (.status "started")]) ++
     [.touchLock])

/-- Status changes while the providers are stopped: `netsim/cli/down.py:150-163`. -/
def stopActs : List String → List Act
  | [] => []
  | p :: rest => .change (.status ("stopping " ++ p)) :: stopActs rest

/-- The end of `down.run`, `netsim/cli/down.py:198-202`. -/
def downEnd (dry : Bool) : List Act :=
  .removeUnlessMismatch :: (if dry then [] else [.unlockDir])

/-- `down.run`, `netsim/cli/down.py:169-202`.  Without `--force`, failing probes and failing commands
end the process; with `--force`, the command continues although the lab was not stopped. -/
def downActs (o : DownOpts) : List Act :=
  .checkMismatch o.force2 o.confirm ::
  (if o.dry then downEnd true
   else
     .change (.status "lab shutdown requested") ::
     ((if o.tools then
         [.change (.status "stopping external tools"), .change (.status "external tools stopped")]
       else []) ++
      stopActs o.providers ++
      (if o.stopOk then .stopWork :: downEnd false
       else if o.force1 then downEnd false
       else [])))

/-- `netlab initial`, `netsim/cli/initial.py:98-118`. -/
def initialActs : List Act :=
  [.change (.status "devices are ready"), .change (.status "deploying configuration"),
   .change (.status "configuration deployment complete"), .touchLock]

/-- The dry-run flag of a command: `netsim/cli/__init__.py:130-140`. -/
def Cmd.dry : Cmd → Bool
  | .up o => o.dry
  | .down o => o.dry
  | _ => false

/-- The actions of a command: `netsim/cli/up.py:296-351`, `netsim/cli/create.py:64-99`,
`netsim/cli/initial.py:98-118`, `netsim/cli/down.py:169-202`. -/
def Cmd.acts : Cmd → List Act
  | .up o => upActs o
  | .create u n => createActs u n
  | .initial => initialActs
  | .down o => downActs o

/-- The system (`netsim/utils/status.py:17-118`): status file, holder of its file lock, lock files, started labs, the last process which
wrote lab files into a directory, and processes. -/
structure World where
  file : LabTable
  flock : Option Nat
  locked : String → Bool
  running : String → Option String
  conf : String → Option Nat
  procs : Nat → Option Proc
  next : Nat

/-- Change one value of a function (no counterpart in the code; represents changes of the file system,
`netsim/utils/status.py:94-118`). -/
def upd {α β : Type} [DecidableEq α] (f : α → β) (a : α) (b : β) : α → β :=
  fun x => if x = a then b else f x

/-- Store the state of a process (no counterpart in the code; the processes execute `netsim/cli/up.py:296-351`,
`netsim/cli/down.py:169-202`, ...). -/
def World.put (w : World) (pid : Nat) (p : Proc) : World :=
  { w with procs := upd w.procs pid (some p) }

/-- A process ends; the operating system releases its file lock (`netsim/utils/status.py:48-49`). -/
def World.kill (w : World) (pid : Nat) : World :=
  { w with
    procs := upd w.procs pid none
    flock := if w.flock = some pid then none else w.flock }

/-- `lab_dir_mismatch`, `netsim/cli/down.py:103-124`: `none` when the user does not want to continue. -/
def labDirMismatch (lab cwd : String) (force confirm : Bool) (st : LabTable) : Option Bool :=
  match st.lookup lab with
  | none => some false
  | some e =>
    if e.dir == cwd then some false
    else if force then some true
    else if confirm then some true
    else none

/-- `check_lab_instance`, `netsim/cli/up.py:150-161`. -/
def instanceElsewhere (lab cwd : String) (st : LabTable) : Bool :=
  match st.lookup lab with
  | none => false
  | some e => e.dir != cwd

/-- One step of `change_status`, `netsim/utils/status.py:37-66`.  A process waiting for the file lock does
nothing (the three-second timeout is one of the ways in which a process ends).  A conflict ends the
process after the lock is released (`netsim/cli/up.py:325-327`). -/
def stepChange (w : World) (pid : Nat) (p : Proc) (op : StatusOp) (rest : List Act) : World :=
  match p.phase with
  | .idle =>
    if w.flock = none then { w with flock := some pid }.put pid { p with phase := .locked } else w
  | .locked => w.put pid { p with phase := .loaded w.file }
  | .loaded st =>
    { w with file := [] }.put pid
      { p with phase := .truncated (applyOp p.dry p.lab p.dir op st).1 (applyOp p.dry p.lab p.dir op st).2 }
  | .truncated st c => { w with file := st }.put pid { p with phase := .written c }
  | .written c =>
    { w with flock := none }.put pid
      { p with
        acts := if c then [] else rest
        phase := .idle }

/-- One step of a process: `netsim/cli/up.py:296-351`, `netsim/cli/create.py:84-97`,
`netsim/cli/down.py:169-202`, `netsim/utils/status.py:94-118`. -/
def stepProc (w : World) (pid : Nat) (p : Proc) : World :=
  match p.acts with
  | [] => w.kill pid
  | .change op :: rest => stepChange w pid p op rest
  | .checkExisting :: rest =>
    if w.locked p.dir then w.kill pid else w.put pid { p with acts := rest }
  | .unlockUser :: rest =>
    if w.locked p.dir then
      { w with locked := upd w.locked p.dir false }.put pid { p with acts := .change .logLine :: rest }
    else w.put pid { p with acts := rest }
  | .checkWriteable :: rest =>
    if w.locked p.dir then w.kill pid else w.put pid { p with acts := rest }
  | .writeFiles :: rest =>
    { w with conf := upd w.conf p.dir (some pid) }.put pid { p with acts := rest }
  | .checkInstance :: rest =>
    if instanceElsewhere p.lab p.dir w.file then w.kill pid else w.put pid { p with acts := rest }
  | .lockDir :: rest =>
    { w with locked := upd w.locked p.dir true }.put pid { p with acts := rest }
  | .startWork :: rest =>
    { w with running := upd w.running p.dir (some p.lab) }.put pid { p with acts := rest }
  | .touchLock :: rest => w.put pid { p with acts := rest }
  | .checkMismatch force confirm :: rest =>
    match labDirMismatch p.lab p.dir force confirm w.file with
    | none => w.kill pid
    | some m =>
      w.put pid { p with
        acts := rest
        mismatch := m }
  | .stopWork :: rest =>
    { w with running := upd w.running p.dir none }.put pid { p with acts := rest }
  | .removeUnlessMismatch :: rest =>
    w.put pid { p with acts := if p.mismatch then rest else .change .remove :: rest }
  | .unlockDir :: rest =>
    { w with locked := upd w.locked p.dir false }.put pid { p with acts := rest }

/-- What can happen: a command is started in a directory, a process makes a step, a process ends, the
user removes the status file (`netlab status --reset`, `netsim/cli/status.py:210-226`). -/
inductive LabEvent
  | spawn (c : Cmd) (dir lab : String)
  | run (pid : Nat)
  | crash (pid : Nat)
  | reset

/-- One event; the commands are `netsim/cli/up.py:296`, `netsim/cli/down.py:169`, `netsim/cli/create.py:64`,
`netsim/cli/initial.py:98`, `netsim/cli/status.py:210-226`. -/
def labStep (w : World) : LabEvent → World
  | .spawn c dir lab =>
    { w with
      procs := upd w.procs w.next (some ⟨dir, lab, c.dry, c.acts, .idle, false⟩)
      next := w.next + 1 }
  | .run pid =>
    match w.procs pid with
    | none => w
    | some p => stepProc w pid p
  | .crash pid =>
    match w.procs pid with
    | none => w
    | some _ => w.kill pid
  | .reset => { w with file := [] }

/-- No lab was ever started: `netsim/utils/status.py:56-57`. -/
def World.init : World :=
  { file := []
    flock := none
    locked := fun _ => false
    running := fun _ => none
    conf := fun _ => none
    procs := fun _ => none
    next := 0 }

/-- A history of events (commands of `netsim/cli/up.py:296`, `netsim/cli/down.py:169`, ...). -/
def labRun (w : World) : List LabEvent → World
  | [] => w
  | e :: rest => labRun (labStep w e) rest

end Netlab
