import Verif.Model.Files
/-!
# `netlab restart`, `netlab test` and `netlab collect` (`netsim/cli/restart.py`, `netsim/cli/test.py`, `netsim/cli/collect.py`)

Simplifications:

* a file system is a list of paths with their content; paths are lists of names without `.` and `..`;
* a failed removal of a directory does not change anything;
* printouts are left out.
-/

namespace Netlab

/-- Arguments accepted by `netlab restart` (`netsim/cli/restart.py:17-36`, `netsim/cli/__init__.py:39-57`); abbreviations of
options are left out. -/
inductive RestartArg where
  | verbose
  | quiet
  | logging
  | warning
  | raiseOnError
  | noConfig
  | fastConfig
  | snapshot (file : Option String)
  | topology (file : String)
  deriving DecidableEq, Repr

/-- The command-line text of an argument (`netsim/cli/restart.py:17-36`, `netsim/cli/__init__.py:39-57`) -/
def RestartArg.text : RestartArg → List String
  | .verbose => ["-v"]
  | .quiet => ["-q"]
  | .logging => ["--log"]
  | .warning => ["--warning"]
  | .raiseOnError => ["--raise_on_error"]
  | .noConfig => ["--no-config"]
  | .fastConfig => ["--fast-config"]
  | .snapshot none => ["--snapshot"]
  | .snapshot (some f) => ["--snapshot", f]
  | .topology f => [f]

/-- Does the parser of `netlab down` accept the arguments?  (`netsim/cli/down.py:23-51`; `parse_args` exits with an error
message when there is an unknown argument) -/
def downParse : List String → Bool
  | [] => true
  | t :: r =>
    if ["-v", "--verbose", "--cleanup", "--dry-run", "--force"].contains t then downParse r
    else if ["-i", "--instance"].contains t then
      match r with
      | [] => false
      | _ :: r' => downParse r'
    else false

/-- A command started by `netlab restart` (`netsim/cli/restart.py:43-44`) -/
inductive RestartStep where
  | down (args : List String)
  | up (args : List String)
  deriving DecidableEq, Repr

/-- `netsim/cli/restart.py:38-44` (`run`): the commands that were executed.  `downOk` tells whether `netlab down` returns
(it exits when there is no snapshot file). -/
def restartRun (downOk : Bool) (args : List RestartArg) : List RestartStep :=
  let cli := args.flatMap RestartArg.text
  let rest := cli.filter (fun a => !["--fast-config", "--no-config", "--snapshot"].contains a)
  if !downParse rest then []
  else if !downOk then [.down rest]
  else [.down rest, .up cli]

/-- A path (`netsim/cli/test.py:53-57`) -/
abbrev DirPath := List String

/-- Directories and files with their content (`netsim/cli/test.py:50-63`, `netsim/cli/collect.py:67-108`) -/
abbrev DirTree := List (DirPath × String)

/-- `os.path.exists` (`netsim/cli/test.py:109`, `netsim/cli/__init__.py:149`) -/
def treeExists (fs : DirTree) (p : DirPath) : Bool := fs.any (fun e => p.isPrefixOf e.1)

/-- `shutil.rmtree` (`netsim/cli/test.py:86`, `netsim/cli/__init__.py:156`) -/
def treeRemove (fs : DirTree) (p : DirPath) : DirTree := fs.filter (fun e => !p.isPrefixOf e.1)

/-- The parent directory exists (`os.mkdir` raises an exception otherwise, `netsim/cli/test.py:53`); the current directory
always exists. -/
def treeParent (fs : DirTree) (cwd p : DirPath) : Bool := p.length == 1 || treeExists fs (cwd ++ p.dropLast)

/-- What `netlab test` depends on (`netsim/cli/test.py:50-133`): the current directory, the working directory (a relative path),
success of provider probes and of the copy of the topology file, the commands, and permissions to remove files. -/
structure LabTestEnv where
  cwd : DirPath
  workdir : DirPath
  probes : Bool
  copyOk : Bool
  up : DirTree → Bool × DirTree
  down : DirTree → Bool × DirTree
  force : DirTree → Bool × DirTree
  rmtree : DirPath → Bool
  sudoRm : DirPath → Bool

/-- Outcome of `netlab test` (`netsim/cli/test.py:100-133`): commands in the order of execution; `success` is the success
message, `fatal` an aborted test. -/
structure LabTestRun where
  fs : DirTree
  commands : List String := []
  fatal : Bool := false
  success : Bool := false

/-- `netsim/cli/test.py:80-98` (`cleanup_working_directory`) without the forced cleanup: `os.chdir("..")`, then the
working directory is removed.  `shutil.rmtree` raises an exception when there is no such directory, `rm -fr` does not. -/
def testCleanup (e : LabTestEnv) (fs : DirTree) : DirTree :=
  let target := e.cwd ++ e.workdir.dropLast ++ e.workdir
  if treeExists fs target && e.rmtree target then treeRemove fs target
  else if e.sudoRm target then treeRemove fs target
  else fs

/-- `netsim/cli/test.py:80-82`, `65-78` (`cleanup_force`) and the removal of the directory -/
def testForced (e : LabTestEnv) (fs : DirTree) : DirTree := testCleanup e (e.force fs).2

/-- The directory with the test topology (`netsim/cli/test.py:50-63`, `copy_topology`) -/
def testFiles (e : LabTestEnv) (fs : DirTree) : DirTree :=
  fs ++ [(e.cwd ++ e.workdir, "directory"), (e.cwd ++ e.workdir ++ ["topology.yml"], "topology")]

/-- `netsim/cli/test.py:100-133` (`run`) -/
def labTest (e : LabTestEnv) (fs : DirTree) : LabTestRun :=
  if treeExists fs (e.cwd ++ e.workdir) then { fs := fs, fatal := true }
  else if !e.probes || e.workdir.isEmpty || !treeParent fs e.cwd e.workdir then { fs := fs, fatal := true }
  else if !e.copyOk then { fs := fs ++ [(e.cwd ++ e.workdir, "directory")], fatal := true }
  else
    let u := e.up (testFiles e fs)
    if !u.1 then { fs := testForced e u.2, commands := ["netlab up", "netlab down --cleanup --force"] }
    else
      let d := e.down u.2
      if !d.1 then
        { fs := testForced e d.2, commands := ["netlab up", "netlab down", "netlab down --cleanup --force"] }
      else { fs := testCleanup e d.2, commands := ["netlab up", "netlab down"], success := true }

/-- `netsim/cli/collect.py:57-60` (`get_tarball_file`) -/
def tarballFile (t : String) : String :=
  if subStr ".tar".toList t.toList then t else t ++ ".tar.gz"

/-- What `netlab collect` depends on (`netsim/cli/collect.py:62-110`): the current directory, the lab directory (the
current directory unless a lab instance is selected), the output directory, the Ansible playbook (it gets the output
directory), the tarball, the `tar` command, the cleanup request and permissions to remove directories. -/
structure CollectEnv where
  runDir : DirPath
  labDir : DirPath
  absolute : Bool
  output : DirPath
  playbook : DirTree → DirPath → Bool × DirTree
  tar : Option String
  tarOk : Bool
  cleanup : Bool
  rm : DirPath → Bool

/-- The directory `args.output` stands for in the current directory (`netsim/cli/collect.py:69-71`, `101`) -/
def CollectEnv.out (e : CollectEnv) (cwd : DirPath) : DirPath := if e.absolute then e.output else cwd ++ e.output

/-- Outcome of `netlab collect` (`netsim/cli/collect.py:62-110`): the archive has a name and the files it contains. -/
structure CollectRun where
  fs : DirTree
  fatal : Bool := false
  archive : Option (String × DirTree) := none

/-- `netsim/cli/__init__.py:146-168` (`fs_cleanup`) for one directory; `none` is a fatal error. -/
def treeCleanup (rm : DirPath → Bool) (fs : DirTree) (p : DirPath) : Option DirTree :=
  if !treeExists fs p then some fs
  else if rm p then some (treeRemove fs p)
  else none

/-- The `tar` part of `run` (`netsim/cli/collect.py:89-108`) -/
def collectTar (e : CollectEnv) (fs : DirTree) (t : String) : CollectRun :=
  let o := e.out e.runDir
  if !e.tarOk || !treeExists fs o then { fs := fs, fatal := true }
  else
    let a := some (tarballFile t, fs.filter (fun x => o.isPrefixOf x.1))
    if !e.cleanup then { fs := fs, archive := a }
    else match treeCleanup e.rm fs o with
      | none => { fs := fs, fatal := true, archive := a }
      | some fs' => { fs := fs', archive := a }

/-- `netsim/cli/collect.py:62-110` (`run`); the parent of the output directory exists. -/
def collectRun (e : CollectEnv) (fs : DirTree) : CollectRun :=
  match treeCleanup e.rm fs (e.out e.labDir) with
  | none => { fs := fs, fatal := true }
  | some fs1 =>
    let p := e.playbook (fs1 ++ [(e.out e.labDir, "directory")]) (e.out e.labDir)
    if !p.1 then { fs := p.2, fatal := true }
    else match e.tar with
      | none => { fs := p.2 }
      | some t => collectTar e p.2 t

end Netlab
