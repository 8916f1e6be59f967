import Verif.Model.BoxBuild
/-!
# Specification of building Vagrant boxes
-/

namespace Netlab.Spec

/-- Nothing used to build the box is left on the host. -/
def NothingLeft (h : BbHost) : Prop := h.vm = false ∧ h.net = false ∧ h.dir = false

/-- All steps of the process, in the correct order: the box is installed after it's created. -/
def allSteps : List BbStep :=
  [.clean, .startNet, .workdir, .preinstall, .disk, .iso, .vm, .stopNet, .box, .cleanAll, .install]

/-- A box version can be used in a file name: letters, digits, underscores, dots and dashes, and it does not start with a dot or a
dash. -/
def GoodVersion (v : String) : Prop :=
  v ≠ "" ∧ v.toList.length ≤ 16 ∧
  (∀ c ∈ v.toList, c ∈ "abcdefghijklmnopqrstuvwxyzABCDEFGHIJKLMNOPQRSTUVWXYZ0123456789_.-".toList) ∧
  v.toList.head? ≠ some '.' ∧ v.toList.head? ≠ some '-'

/-- A word in a command: no spaces. -/
def Word (w : List Char) : Prop := w ≠ [] ∧ ' ' ∉ w

end Netlab.Spec
