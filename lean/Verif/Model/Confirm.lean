import Verif.Model.ToolRun
import Verif.Model.Nodeset
/-!
# Commands that ask for confirmation (`netsim/utils/strings.py:135-151`, `netsim/cli/status.py:188-261`,
`netsim/cli/clab_actions/cleanup.py:22-55`)

Text is compared character by character.  Messages printed for the user are not modelled, apart from the tables and logs that are
the purpose of the command.
-/

namespace Netlab

/-- `input(prompt).lower()`, `netsim/utils/strings.py:143` (ASCII letters). -/
def answerText (s : String) : List Char := s.toList.map Char.toLower

/-- `confirm`, `netsim/utils/strings.py:135-151`: `none` when the user interrupts the program instead of answering. -/
def confirm : List String → Option Bool
  | [] => none
  | a :: r =>
    if answerText a = ['y'] ∨ answerText a = ['y', 'e', 's'] then some true
    else if answerText a = ['n'] ∨ answerText a = ['n', 'o'] then some false
    else confirm r

/-- Python `in` between texts, used in `netsim/cli/status.py:155` and `netsim/cli/status.py:172`. -/
def textIn (p : List Char) : List Char → Bool
  | [] => p.isEmpty
  | c :: r => p.isPrefixOf (c :: r) || textIn p r

/-- Information about a lab in the status file, `netsim/cli/status.py:86-95`. -/
structure LabInfo where
  dir : String
  status : String
  providers : List String
  log : List String
deriving DecidableEq, Repr

/-- Arguments of `netlab status`, `netsim/cli/status.py:21-47`. -/
structure StatusArgs where
  log : Bool
  cleanup : Bool
  reset : Bool
  all : Bool
  inst : Option String
deriving DecidableEq, Repr

/-- What `netlab status` does, `netsim/cli/status.py:78-231`. -/
inductive StatusDo
  /-- The status file is removed. -/
  | remove
  /-- `netlab down --cleanup` is executed in a directory. -/
  | stop (dir : String)
  /-- The table of labs is displayed. -/
  | labs (rows : List (LabKey × String × String × List String))
  /-- Description of a lab is displayed. -/
  | lab (key : LabKey) (dir status : String) (providers : List String)
  /-- The log of a lab is displayed. -/
  | log (lines : List String)
  /-- The nodes of the lab described in the snapshot file in a directory are displayed. -/
  | nodes (dir : String)
deriving DecidableEq, Repr

/-- The result of `netlab status`: what was done, and whether it ended with an error, `netsim/cli/status.py:239-261`. -/
structure StatusRun where
  acts : List StatusDo
  ok : Bool
deriving DecidableEq, Repr

/-- What the command finds on the host: labs in the status file, current directory, answers of the user, readable snapshots,
status file can be removed, directories that exist; `netsim/cli/status.py:188-261`. -/
structure StatusHost where
  states : List (LabKey × LabInfo)
  cwd : String
  answers : List String
  snapshot : String → Bool
  removable : Bool
  isDir : String → Bool

/-- The instance selected by the user and its data (`lab_states[iid]`), `netsim/cli/status.py:161-162`. -/
def selectedLab (a : StatusArgs) (h : StatusHost) : Option (LabKey × LabInfo) :=
  (getInstance a.inst h.cwd (h.states.map (fun s => (s.1, s.2.dir)))).bind
    (fun k => (h.states.lookup k).map (fun i => (k, i)))

/-- `reset_lab_status`, `netsim/cli/status.py:214-231`. -/
def statusReset (h : StatusHost) : StatusRun :=
  match confirm h.answers with
  | none => ⟨[], false⟩
  | some false => ⟨[], true⟩
  | some true => if h.removable then ⟨[.remove], true⟩ else ⟨[], false⟩

/-- `cleanup_lab`, `netsim/cli/status.py:194-212`: a missing directory is a crash. -/
def statusCleanup (a : StatusArgs) (h : StatusHost) : StatusRun :=
  match selectedLab a h with
  | none => ⟨[], false⟩
  | some (_, i) =>
    match confirm h.answers with
    | none => ⟨[], false⟩
    | some false => ⟨[], true⟩
    | some true => if h.isDir i.dir then ⟨[.stop i.dir], true⟩ else ⟨[], false⟩

/-- `print_lab_log`, `netsim/cli/status.py:143-148`. -/
def logLines (l : List String) : List StatusDo := if l.isEmpty then [] else [.log l]

/-- `show_lab_log`, `netsim/cli/status.py:188-192`. -/
def statusLog (a : StatusArgs) (h : StatusHost) : StatusRun :=
  match selectedLab a h with
  | none => ⟨[], false⟩
  | some (k, i) => ⟨.lab k i.dir i.status i.providers :: logLines i.log, true⟩

/-- `show_lab`, `netsim/cli/status.py:160-186`. -/
def statusShow (a : StatusArgs) (h : StatusHost) : StatusRun :=
  match selectedLab a h with
  | none => ⟨[], false⟩
  | some (k, i) =>
    let lab := StatusDo.lab k i.dir i.status i.providers
    if h.snapshot i.dir then
      let st := labStatusOf (fun l => textIn "started".toList l.toList) i.status i.log
      if textIn "started".toList st.toList then ⟨[lab, .nodes i.dir], true⟩
      else ⟨lab :: logLines i.log, true⟩
    else ⟨[lab], false⟩

/-- `run`, `netsim/cli/status.py:233-261` (with `check_conflicting_options`, and `display_active_labs`,
`netsim/cli/status.py:78-89`). -/
def statusRun (a : StatusArgs) (h : StatusHost) : StatusRun :=
  if 1 < ([a.all, a.reset, a.cleanup].filter id).length then ⟨[], false⟩
  else if a.reset then statusReset h
  else if h.states.isEmpty then ⟨[], false⟩
  else if a.all then
    ⟨[.labs (h.states.map (fun s =>
      (s.1, s.2.dir, if s.2.status = "" then "Unknown" else s.2.status, s.2.providers)))], true⟩
  else if a.cleanup then statusCleanup a h
  else if a.log then statusLog a h
  else statusShow a h

/-- `clab_cleanup`, `netsim/cli/clab_actions/cleanup.py:22-55`: commands executed after the list of containers is known; `ps` is
the printout of `docker ps` (`none` when it fails). -/
def dockerCleanup (force : Bool) (answers : List String) (ps : Option String) : List (List String) :=
  if force ∨ confirm answers = some true then
    [["docker", "ps", "--format", "{{ .Names }}"]] ++
    (match ps with
      | some t => [["docker", "kill"] ++ ((splitOnChar '\n' t.toList).filter (fun c => !c.isEmpty)).map String.ofList]
      | none => []) ++
    [["docker", "system", "prune", "-f"]]
  else []

end Netlab
