/-!
# Removal of lab files (`netlab down --cleanup`)

Paths are lists of components relative to the lab directory. A file system maps paths to the kinds of objects found there. External events -- failures of the operating system
functions and interruptions -- are parameters.
-/

namespace Netlab

/-- Objects in the file system: `os.path.isdir` and `os.path.exists` follow symbolic links, `shutil.rmtree` refuses to (`netsim/cli/__init__.py:149-168`). -/
inductive FsKind where
  | file | dir | linkToDir | dangling
  deriving DecidableEq, Repr

/-- Paths (`netsim/cli/__init__.py:146-148`) as lists of components -/
abbrev FsPath := List String

/-- File system: what is found at a path (`netsim/cli/__init__.py:149-168`) -/
abbrev LabFs := FsPath → Option FsKind

/-- `os.path.isdir` (`netsim/cli/__init__.py:149`) -/
def fsIsDir (fs : LabFs) (p : FsPath) : Bool := fs p = some .dir || fs p = some .linkToDir

/-- `os.path.exists` (`netsim/cli/__init__.py:159`) -/
def fsExists (fs : LabFs) (p : FsPath) : Bool := fs p = some .file || fs p = some .dir || fs p = some .linkToDir

/-- What happens when a file or directory is removed: it's removed, or the removal fails or is interrupted, in which case a part of a directory tree may have already been removed (`netsim/cli/__init__.py:151-168`). -/
inductive RmFate where
  | ok
  | failed (removed : List FsPath)

/-- `shutil.rmtree`, `os.remove` (successful): the path and everything below it is gone (`netsim/cli/__init__.py:156,166`) -/
def fsRemove (fs : LabFs) (p : FsPath) : LabFs := fun q => if p.isPrefixOf q then none else fs q

/-- `shutil.rmtree` (failed or interrupted): some objects below the path are gone; directories are removed after their content (`netsim/cli/__init__.py:156`). -/
def fsRemovePart (fs : LabFs) (p : FsPath) (removed : List FsPath) : LabFs :=
  fun q => if p.isPrefixOf q && q != p && removed.contains q then none else fs q

/-- One step of `fs_cleanup` (`netsim/cli/__init__.py:148-168`): the new file system and whether the program continues (`log.fatal` terminates the program, and so does an interruption). -/
def fsCleanupOne (dry : Bool) (fs : LabFs) (p : FsPath) (fate : RmFate) : LabFs × Bool :=
  if fsIsDir fs p then
    if dry then (fs, true)
    else if fs p = some .linkToDir then (fs, false)     -- shutil.rmtree: Cannot call rmtree on a symbolic link
    else match fate with
      | .ok => (fsRemove fs p, true)
      | .failed r => (fsRemovePart fs p r, false)
  else if fsExists fs p then
    if dry then (fs, true)
    else match fate with
      | .ok => (fsRemove fs p, true)
      | .failed _ => (fs, false)
  else (fs, true)

/-- `netsim/cli/__init__.py:146-168` (`fs_cleanup`): remove files and directories; the second result is false if the program did not get to the end of the list. -/
def fsCleanup (dry : Bool) : List (FsPath × RmFate) → LabFs → LabFs × Bool
  | [], fs => (fs, true)
  | (p, fate) :: r, fs =>
    match fsCleanupOne dry fs p fate with
    | (fs', true) => fsCleanup dry r fs'
    | (fs', false) => (fs', false)

/-- Names of files created by netlab, from system defaults (`netsim/cli/down.py:57-66`) -/
structure CleanEnv where
  cleanup : String → List FsPath                          -- defaults.providers.X.cleanup
  filename : String → String → Option FsPath              -- defaults.providers.X.Y.filename
  ansible : List FsPath                                   -- defaults.automation.ansible.cleanup

/-- The snapshot of the lab topology (`netsim/cli/down.py:67`) -/
def snapshotPath : FsPath := ["netlab.snapshot.yml"]

/-- `netsim/cli/down.py:56-67` (`down_cleanup`): list of files to remove, for the primary provider and secondary providers of the lab. -/
def downCleanupList (e : CleanEnv) (p : String) (secondary : List String) : List FsPath :=
  e.cleanup p ++ secondary.flatMap (fun s => e.cleanup s ++ (e.filename p s).toList) ++ e.ansible ++ [snapshotPath]

/-- One tool in `tool_cleanup` (`netsim/cli/down.py:73-79`, `netsim/cli/external_commands.py:254-262`): commands of the tool are arbitrary (they work on Docker volumes, simplification: they
don't change files in the lab directory), and the last command removes the directory of the tool. Failed commands are ignored; the second result is false after an interruption
(`interrupted`). -/
def toolCleanupOne (dry : Bool) (fs : LabFs) (tool : String) (fate : RmFate) (interrupted : Bool) : LabFs × Bool :=
  if dry then (fs, true)
  else match fate with
    | .ok => (fsRemove fs [tool], !interrupted)
    | .failed r => (fsRemovePart fs [tool] r, !interrupted)

/-- `netsim/cli/down.py:73-79` (`tool_cleanup`) -/
def toolCleanup (dry : Bool) : List (String × RmFate × Bool) → LabFs → LabFs × Bool
  | [], fs => (fs, true)
  | (t, fate, i) :: r, fs =>
    match toolCleanupOne dry fs t fate i with
    | (fs', true) => toolCleanup dry r fs'
    | (fs', false) => (fs', false)

/-- `netsim/cli/down.py:189-196` (`run`, files of a stopped lab): tools, then configuration files; nothing without a snapshot (`load_snapshot`, `netsim/cli/__init__.py:224-230`).
The snapshot is read before the files are removed: it contains the names of tools and providers. -/
def downFiles (dry : Bool) (tools : List (String × RmFate × Bool)) (files : List (FsPath × RmFate)) (fs : LabFs) : LabFs × Bool :=
  if fs snapshotPath = some .file then
    match toolCleanup dry tools fs with
    | (fs', true) => fsCleanup dry files fs'
    | (fs', false) => (fs', false)
  else (fs, false)

/-- `netsim/cli/__init__.py:243-261` (`check_modified_source`): input files that cause a warning, with modification times of existing files. -/
def modifiedSources (mtime : String → Option Nat) (snap : Nat) (inputs : List String) : List String :=
  inputs.filter (fun f => match mtime f with | none => false | some t => !decide (t ≤ snap))

end Netlab
