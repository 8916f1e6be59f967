import Verif.Model.Mgmt
/-!
# Management addresses
-/

namespace Netlab.Spec

/-- Different numbers are written in different ways -/
def MgmtText.Faithful (t : MgmtText) : Prop :=
  (∀ a b, t.fmt4 a = t.fmt4 b → a = b) ∧ (∀ a b, t.fmt6 a = t.fmt6 b → a = b) ∧
  (∀ a b, t.fmtMac a = t.fmtMac b → a = b)

/-- `s` is the text of an address inside the network -/
def InNet (fmt : Nat → String) (net : Net) (s : String) : Prop :=
  ∃ a, s = fmt a ∧ net.base ≤ a ∧ a < net.base + net.size

/-- Two optional addresses are not the same address -/
def Different (a b : Option String) : Prop := ∀ s, a = some s → b ≠ some s

end Netlab.Spec
