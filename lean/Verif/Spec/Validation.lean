import Verif.Model.Validation

namespace Netlab.Spec

open Netlab

/-- What a validation expression says: passed, failed or (no expression) unknown. -/
def exprVerdict : EvalRes → Option Bool
  | .missing => none
  | .good => some true
  | .bad => some false

/-- What a plugin says. -/
def plugVerdict : PlugRes → Option Bool
  | .unknown => none
  | .good => some true
  | .bad => some false

/-- What the data received from SuzieQ says: either all records must be valid, or at least one of them. -/
def suzVerdict (all : Bool) : SuzRes → Option Bool
  | .error ev => exprVerdict ev
  | .dict _ ev => exprVerdict ev
  | .list [] => none
  | .list (r :: rs) =>
    if all then some (decide (r = .good ∧ .bad ∉ rs)) else some (decide (.good ∈ r :: rs))

/-- What the check in the test (validation expression or plugin) says about the received data. -/
def checkVerdict (e : ValEntry) (r : ValResp) : Option Bool :=
  if e.valid then exprVerdict r.eval else if e.plugin then plugVerdict r.plug else none

/-- What an attempt says about the node: the node passed, failed or we don't know. -/
def verdict (e : ValEntry) (a : Option ValAction) (r : ValResp) : Option Bool :=
  match a with
  | none => none
  | some .wait => some true
  | some .query => if r.showErr then some false else checkVerdict e r
  | some .exec => if r.execFail then some false else checkVerdict e r
  | some .config => checkVerdict e r
  | some .suzieq =>
    if r.suz.nonempty = e.suzieqEmpty then some false
    else if e.valid then suzVerdict e.suzieqAll r.suz else some true

/-- The failure cannot be fixed by trying again: the device does not understand `show`, or does not return JSON. -/
def Hopeless (a : Option ValAction) (r : ValResp) : Prop := a = some .query ∧ r.showErr = true

/-- The node has to be tried again: it failed before the deadline. -/
def TryAgain (t : ValTopo) (e : ValEntry) (stop : Nat) (c : ValCall) : Prop :=
  verdict e (findTestAction t e c.node) c.resp = some false ∧ c.time < stop ∧
    ¬ Hopeless (findTestAction t e c.node) c.resp

/-- The result of an attempt: either the node has to be tried again, or the result is what the attempt says. -/
def AttemptRight (t : ValTopo) (e : ValEntry) (stop : Nat) (c : ValCall) : Prop :=
  (TryAgain t e stop c → c.proc = false ∧ c.ok = none) ∧
  (¬ TryAgain t e stop c → c.proc = true ∧ c.ok = verdict e (findTestAction t e c.node) c.resp)

/-- `suzieq` and `plugin` cannot be used in the same test (checked in `netsim/augment/validate.py:36-45`). -/
def OneAction (e : ValEntry) : Prop := ¬ (e.suzieq = true ∧ e.plugin = true)

/-- When a command fails on the node, so does the check. -/
def FailedExecIsBad (e : ValEntry) (c : ValCall) : Prop :=
  c.resp.execFail = true → checkVerdict e c.resp = some false

/-- Attempts made on a node, in sequence. -/
def attemptsOn (n : String) (log : List ValCall) : List ValCall := log.filter (fun c => c.node == n)

/-- The test failed in a way that must be visible in the exit code as a failure. -/
def Failure (p : ValEntry × Option Bool) : Prop := p.2 = some false ∧ (p.1.warning = false ∨ p.1.stop = true)

/-- Validation of multiple SuzieQ records asks for all of them to be valid. -/
def AllRecords (e : ValEntry) : Prop := e.valid = true → e.suzieqAll = true

end Netlab.Spec
