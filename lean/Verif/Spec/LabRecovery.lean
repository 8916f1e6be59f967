import Verif.Spec.LabStatus
/-!
# Specification: commands that are executed without interruption
-/

namespace Netlab.Spec

open Netlab

/-- The command started in a directory ends in state `w'` when it's executed without interruption. -/
def Completes (w : World) (c : Cmd) (dir lab : String) (w' : World) : Prop :=
  ∃ n, labRun (labStep w (.spawn c dir lab)) (List.replicate n (.run w.next)) = w' ∧ w'.procs w.next = none

/-- The command made `k` steps and then it was interrupted. -/
def interrupted (w : World) (c : Cmd) (dir lab : String) (k : Nat) : World :=
  labStep (labRun (labStep w (.spawn c dir lab)) (List.replicate k (.run w.next))) (.crash w.next)

/-- The lab instance is not used in another directory. -/
def NotElsewhere (w : World) (lab dir : String) : Prop := owner w.file lab = none ∨ owner w.file lab = some dir

/-- Nothing is changed but the lab instance in this directory. -/
def OnlyChanges (w w' : World) (lab dir : String) : Prop :=
  (∀ l, l ≠ lab → w'.file.lookup l = w.file.lookup l) ∧
  ∀ d, d ≠ dir → w'.locked d = w.locked d ∧ w'.running d = w.running d ∧ w'.conf d = w.conf d

end Netlab.Spec
