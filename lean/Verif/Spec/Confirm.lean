import Verif.Model.Confirm
/-!
# Specification of commands that ask for confirmation
-/

namespace Netlab.Spec

/-- Answers that mean "yes". -/
def yesAnswers : List String := ["y", "Y", "yes", "yeS", "yEs", "yES", "Yes", "YeS", "YEs", "YES"]

/-- Answers that mean "no". -/
def noAnswers : List String := ["n", "N", "no", "nO", "No", "NO"]

/-- The first answer that is "yes" or "no" is "yes" (or: is "no"). -/
def Answered (answers : List String) (yes : Bool) : Prop :=
  ∃ before a after, answers = before ++ a :: after ∧
    (∀ x ∈ before, x ∉ yesAnswers ∧ x ∉ noAnswers) ∧ a ∈ (if yes then yesAnswers else noAnswers)

/-- The lab selected by the user: the instance given as the argument, or the (first) lab in the current directory. -/
def LabSelected (inst : Option String) (cwd : String) (states : List (LabKey × LabInfo)) (k : LabKey) (i : LabInfo) : Prop :=
  (k, i) ∈ states ∧
  match inst with
  | some n => if n = "" then i.dir = cwd else k = labKey n
  | none => i.dir = cwd

/-- The lab was started: its status or its log says so. -/
def WasStarted (i : LabInfo) : Prop :=
  "started".toList <:+: i.status.toList ∨ ∃ l ∈ i.log, "started".toList <:+: l.toList

end Netlab.Spec
