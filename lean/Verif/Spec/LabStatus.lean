import Verif.Model.LabStatus

namespace Netlab.Spec

open Netlab

/-- The directory that owns a lab instance according to the status file. -/
def owner (st : LabTable) (lab : String) : Option String := (st.lookup lab).map LabEntry.dir

/-- A process truncated the status file and has not written it yet. -/
def MidWrite (w : World) (pid : Nat) : Prop :=
  ∃ p st c, w.procs pid = some p ∧ p.phase = .truncated st c

/-- The event ends a process between truncating the status file and writing it. -/
def CrashMidWrite (w : World) : LabEvent → Prop
  | .crash pid => MidWrite w pid
  | _ => False

/-- The event is the step in which a process in directory `dir` removes a lab from the status file. -/
def Removes (lab dir : String) (w : World) : LabEvent → Prop
  | .run pid => ∃ p rest st, w.procs pid = some p ∧ p.lab = lab ∧ p.dir = dir ∧
      p.acts = .change .remove :: rest ∧ p.phase = .loaded st
  | _ => False

/-- The user deleted the status file. -/
def IsReset : LabEvent → Prop
  | .reset => True
  | _ => False

/-- A condition holds for every event of a history, in the state in which it happens. -/
def Along (P : World → LabEvent → Prop) (w : World) : List LabEvent → Prop
  | [] => True
  | e :: rest => P w e ∧ Along P (labStep w e) rest

/-- Commands working on a lab instance do not overlap. -/
def NoOverlapLab (lab : String) (w : World) : LabEvent → Prop
  | .spawn _ _ l => l = lab → ∀ pid p, w.procs pid = some p → p.lab ≠ lab
  | _ => True

/-- Commands in a directory do not overlap. -/
def NoOverlapDir (w : World) : LabEvent → Prop
  | .spawn _ d _ => ∀ pid p, w.procs pid = some p → p.dir ≠ d
  | _ => True

/-- `netlab down` does not check the status file while some other command is rewriting it. -/
def CleanCheck (w : World) : LabEvent → Prop
  | .run pid => ∀ p f c rest, w.procs pid = some p → p.acts = .checkMismatch f c :: rest →
      ∀ q, ¬ MidWrite w q
  | _ => True

/-- The user did not override the protection: no `--unlock`, no `--force` when the lab cannot be
stopped, no aborted restart of an `external` lab. -/
def Polite : LabEvent → Prop
  | .spawn (.up o) _ _ => o.unlock = false ∧ (o.abort = true → o.snapshot = false)
  | .spawn (.create u _) _ _ => u = false
  | .spawn (.down o) _ _ => o.force1 = true → o.stopOk = true
  | _ => True

/-- The event writes lab files into a directory. -/
def Writes (dir : String) (w : World) : LabEvent → Prop
  | .run pid => ∃ p rest, w.procs pid = some p ∧ p.dir = dir ∧ p.acts = .writeFiles :: rest
  | _ => False

end Netlab.Spec
