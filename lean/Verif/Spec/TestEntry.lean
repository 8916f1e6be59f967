import Verif.Model.TestEntry
/-!
# Specification vocabulary for lab validation tests and tools
-/

namespace Netlab.Spec

/-- The test has the attribute -/
def TestHas (e : List (String × Val)) (k : String) : Prop := ∃ v, e.lookup k = some v

/-- A test that makes sense: it has an action, `config`, `plugin` and `suzieq` actions cannot be combined with other actions, a test that needs nodes has a list of nodes,
`show` needs a validation expression, and there is something to check with the validation expression -/
structure TestMakesSense (e : List (String × Val)) : Prop where
  action : ∃ k ∈ ["show", "exec", "config", "wait", "plugin", "suzieq"], TestHas e k
  single : ∀ k ∈ ["config", "plugin", "suzieq"], TestHas e k → ∀ j ∈ ["show", "exec", "config", "plugin", "suzieq"], TestHas e j → j = k
  nodes : TestHas e "nodes" ∨ TestHas e "suzieq" ∨ TestHas e "wait"
  valid : TestHas e "show" → TestHas e "valid"
  data : TestHas e "valid" → TestHas e "show" ∨ TestHas e "exec" ∨ TestHas e "suzieq"

/-- The test has an action for the device and (when there are multiple validation expressions) a validation expression for the device -/
def DeviceTested (e : List (String × Val)) (dev : String) : Prop :=
  (∃ k ∈ ["show", "exec"], ∃ d, e.lookup k = some (.dict d) ∧ dev ∈ d.map (·.1)) ∧ ∀ d, e.lookup "valid" = some (.dict d) → dev ∈ d.map (·.1)

/-- The devices supported by the test have to be found from the test -/
def NeedsDevices (e : List (String × Val)) : Prop := (TestHas e "show" ∨ TestHas e "exec") ∧ ¬ TestHas e "devices"

/-- The tool can be started: its runtime has the `up` command -/
def ToolStarts (d : List (String × Val)) : Prop := ∃ r x, d.lookup "runtime" = some (.str r) ∧ d.lookup r = some (.dict x) ∧ "up" ∈ x.map (·.1)

end Netlab.Spec
