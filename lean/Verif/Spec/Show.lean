import Verif.Model.Show
import Verif.Spec.Box
/-!
# Specification of `netlab show` commands
-/

namespace Netlab.Spec

/-- The user wants to see the device: it's not an internal device, and it's either the device specified with `--device`, or there's
no such argument (`*`). -/
def Displayed (arg d : String) : Prop := d ≠ "none" ∧ d ≠ "unknown" ∧ (arg = "*" ∨ arg = d)

/-- The module is documented to work on the device. -/
def Supports (mods : List ShMod) (m d : String) : Prop := ∃ x ∈ mods, x.name = m ∧ d ∈ x.supported

/-- Device features as displayed: a missing or an empty value means that the module is supported without additional features. -/
def DisplayedFeatures (d : ShDev) (m : String) (v : Val) : Prop :=
  (∃ w, d.features.lookup m = some w ∧ w ≠ .null ∧ w ≠ .dict [] ∧ v = w) ∨
  ((d.features.lookup m = none ∨ d.features.lookup m = some .null ∨ d.features.lookup m = some (.dict [])) ∧ v = .bool true)

/-- The last two keys of a path, with a dot between them -/
def LastKeys (p : List String) (s : String) : Prop :=
  (∃ k, p = [k] ∧ s = k) ∨ ∃ q j k, p = q ++ [j, k] ∧ s = j ++ "." ++ k

end Netlab.Spec
