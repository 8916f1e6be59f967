import Verif.Model.Files
/-!
# Search paths
-/

namespace Netlab.Spec

/-- The directories a list of search path entries stands for, in the order of the entries -/
def dirsOf (fs : Fs) (topo : Option String) (curdir : String) (skipMissing : Bool) (entries : List String) :
    List String :=
  entries.filterMap (fun e => match entryPath fs topo curdir e with
    | .path p => if skipMissing = true ∧ fs.isDir p = false then none else some (fs.resolve p)
    | _ => none)

/-- `d` is the first directory of the list containing the file -/
def FirstWith (fs : Fs) (path : String) (dirs : List String) (d : String) : Prop :=
  ∃ pre post, dirs = pre ++ d :: post ∧ fs.exist (fs.join d path) = true ∧
    ∀ q ∈ pre, fs.exist (fs.join q path) = false

end Netlab.Spec
