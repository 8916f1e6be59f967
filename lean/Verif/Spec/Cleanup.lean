import Verif.Model.Cleanup

namespace Netlab.Spec

open Netlab

/-- There is nothing at the path (symbolic links that point nowhere don't count). -/
def Gone (fs : LabFs) (p : FsPath) : Prop := fs p = none ∨ fs p = some .dangling

/-- Only objects with these names, and objects below them, were removed; nothing was added. -/
def OnlyRemoved (names : List FsPath) (fs fs' : LabFs) : Prop :=
  ∀ q, fs' q = fs q ∨ (fs' q = none ∧ ∃ p ∈ names, p <+: q)

end Netlab.Spec
