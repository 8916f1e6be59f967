/-!
# Searching for files (`netsim/utils/files.py`)
-/

namespace Netlab

/-- `x in s` for strings (`netsim/utils/files.py:90,92`) -/
def subStr (x : List Char) : List Char → Bool
  | [] => x.isEmpty
  | c :: r => x.isPrefixOf (c :: r) || subStr x r

/-- `s.replace(x,y)` (`netsim/utils/files.py:82,99`) for a nonempty `x`; the second argument is the number
of characters of the current occurrence still to be skipped -/
def replStr (x y : List Char) : Nat → List Char → List Char
  | _, [] => []
  | k + 1, _ :: r => replStr x y k r
  | 0, c :: r =>
    if x.isPrefixOf (c :: r) then y ++ replStr x y (x.length - 1) r
    else c :: replStr x y 0 r

/-- Python `s.replace(x,y)` (`netsim/utils/files.py:82,99`) -/
def strReplace (x y s : String) : String := String.ofList (replStr x.toList y.toList 0 s.toList)

/-- The operating system as seen by `netsim/utils/files.py`: `pathlib.Path.resolve`, `is_dir`, `os.path.exists`, joining
paths, `expanduser`, `dirname` and the directory of the package.  Python libraries are not modelled. -/
structure Fs where
  resolve : String → String
  isDir : String → Bool
  exist : String → Bool
  join : String → String → String
  home : String → String
  dirname : String → String
  moddir : String

/-- `netsim/utils/files.py:81-82` (`expand_package`) -/
def expandPackage (fs : Fs) (p : String) : String := fs.join fs.moddir (strReplace "package:" "" p)

/-- Meaning of a search path entry (`netsim/utils/files.py:90-108`): a path, no path (there
is no lab topology), or an exception -/
inductive PathEntry where
  | path (p : String)
  | skip
  | crash
  deriving DecidableEq, Repr

/-- `netsim/utils/files.py:90-108`: `topo` is the name of the topology file -/
def entryPath (fs : Fs) (topo : Option String) (curdir e : String) : PathEntry :=
  if subStr "package:".toList e.toList then .path (expandPackage fs e)
  else if subStr "topology:".toList e.toList then
    match topo with
    | none => .skip
    | some t =>
      if "package:".toList.isPrefixOf t.toList then .path (expandPackage fs (fs.dirname t))
      else .path (strReplace "topology:" (fs.dirname t ++ "/") e)
  else match e.toList with
    | [] => .crash
    | c :: _ =>
      if c == '~' then .path (fs.home e)
      else if c == '.' || c == '/' then .path e
      else .path (fs.join curdir e)

/-- `netsim/utils/files.py:84-115` (`absolute_search_path`); `none` = exception -/
def absSearchPath (fs : Fs) (topo : Option String) (curdir : String) (skipMissing : Bool) :
    List String → List String → Option (List String)
  | [], acc => some acc
  | e :: rest, acc =>
    match entryPath fs topo curdir e with
    | .crash => none
    | .skip => absSearchPath fs topo curdir skipMissing rest acc
    | .path p =>
      let f := fs.resolve p
      if acc.contains f then absSearchPath fs topo curdir skipMissing rest acc
      else if fs.isDir p || !skipMissing then absSearchPath fs topo curdir skipMissing rest (acc ++ [f])
      else absSearchPath fs topo curdir skipMissing rest acc

/-- `netsim/utils/files.py:120-126` (`find_file`) -/
def findFile (fs : Fs) (path : String) : List String → Option String
  | [] => none
  | d :: rest => if fs.exist (fs.join d path) then some (fs.join d path) else findFile fs path rest

/-- `netsim/utils/files.py:44-55` (`get_search_path`): the current, user and system directories are
parameters -/
def getSearchPath (fs : Fs) (cur user sys : String) (comp pkg : Option String) : List String :=
  let path := [cur, user, sys]
  let truthy : Option String → Option String := fun o => o.bind (fun s => if s.isEmpty then none else some s)
  let (path, pkg) := match truthy comp with
    | some c => (path.map (fun p => fs.join p c), some ((truthy pkg).getD c))
    | none => (path, truthy pkg)
  path ++ [match pkg with
    | some c => fs.join fs.moddir c
    | none => fs.moddir]

end Netlab
