/-!
# Lab validation

`netlab validate`: one attempt on one node, the retry loop of a test, the sequence of tests and the exit code
(`netsim/cli/validate.py`).

Simplifications:

* printouts, log messages and result dumps are left out, skip counts of plugin functions as well;
* the outcome of evaluating a Python expression or a plugin function on the data received from a device is an input
  (one of: no expression, true, false; exceptions and `None` count as false, as in the code);
* readings of the clock and everything received from devices are an arbitrary sequence (`ValEnv`), so a theorem about
  every `ValEnv` covers every behaviour of the devices and every schedule;
* the `while` loop gets fuel; termination is a theorem;
* the initial extension of wait times (`extend_first_wait_time`, `extend_device_wait_time`) happened before.
-/

namespace Netlab

/-- `TEST_COUNT`, `netsim/cli/validate.py:73`. -/
structure ValCounts where
  passed : Nat
  failed : Nat
  warning : Nat
  count : Nat
  skip : Nat
deriving DecidableEq, Repr

/-- Initial counts: `netsim/cli/validate.py:73`. -/
def ValCounts.zero : ValCounts := ⟨0, 0, 0, 0, 0⟩

/-- `increase_fail_count`, `netsim/cli/validate.py:78-84`. -/
def ValCounts.fail (warn : Bool) (c : ValCounts) : ValCounts :=
  if warn then { c with
    count := c.count + 1
    warning := c.warning + 1 }
  else { c with
    count := c.count + 1
    failed := c.failed + 1 }

/-- `increase_pass_count`, `netsim/cli/validate.py:86-89`. -/
def ValCounts.pass (c : ValCounts) : ValCounts :=
  { c with
    count := c.count + 1
    passed := c.passed + 1 }

/-- `TEST_COUNT.skip += 1`, `netsim/cli/validate.py:866`. -/
def ValCounts.skipped (c : ValCounts) : ValCounts := { c with skip := c.skip + 1 }

/-- Test actions (`query` is `show`), `netsim/cli/validate.py:630,644`. -/
inductive ValAction
  | query | exec | config | suzieq | wait
deriving DecidableEq, Repr

/-- `show` and `exec` commands: a string (for all devices) or a dictionary with device keys:
`netsim/cli/validate.py:635-638`. -/
inductive ValSel
  | all
  | devices (l : List String)
deriving DecidableEq, Repr

/-- A validation test: `netsim/cli/validate.py:952-1029`. -/
structure ValEntry where
  name : String
  /-- `level` is `warning` -/
  warning : Bool
  /-- `stop_on_error` -/
  stop : Bool
  wait : Option Nat
  nodes : List String
  /-- `show` -/
  shows : Option ValSel
  /-- `exec` -/
  execs : Option ValSel
  config : Bool
  suzieq : Bool
  /-- `suzieq.expect` is `empty` -/
  suzieqEmpty : Bool
  /-- `suzieq.valid` is not `any` -/
  suzieqAll : Bool
  plugin : Bool
  valid : Bool
deriving DecidableEq, Repr

/-- The result of a validation expression: `netsim/cli/validate.py:710-731`. -/
inductive EvalRes
  /-- no expression for the device -/
  | missing
  | good
  /-- false, `None` or an exception -/
  | bad
deriving DecidableEq, Repr

/-- The result of a plugin function: `netsim/cli/validate.py:817-825`. -/
inductive PlugRes
  /-- there is no such function, or the function decided to skip the test -/
  | unknown
  | good
  /-- false or an exception -/
  | bad
deriving DecidableEq, Repr

/-- What was received from SuzieQ, with the results of validation: `netsim/cli/validate.py:586-626,769-785`. -/
inductive SuzRes
  /-- The command failed, or the result is not JSON.  The result is a nonempty dictionary -/
  | error (ev : EvalRes)
  /-- A dictionary, and whether it has data -/
  | dict (nonempty : Bool) (ev : EvalRes)
  /-- A list of records -/
  | list (evs : List EvalRes)
deriving DecidableEq, Repr

/-- Everything received from the outside during an attempt: `netsim/cli/validate.py:845-915`. -/
structure ValResp where
  /-- `show` failed or its printout is not JSON -/
  showErr : Bool
  /-- `exec` failed -/
  execFail : Bool
  eval : EvalRes
  plug : PlugRes
  suz : SuzRes
  /-- `netlab config` succeeded -/
  cmdOk : Bool
deriving DecidableEq, Repr

/-- The outside world: the reading of the clock and the response, for every interaction in sequence:
`netsim/cli/validate.py:990,996`. -/
abbrev ValEnv := Nat → Nat × ValResp

/-- The node data needed to select the action: the device of a node and the action of the validation plugin
(`show` is true, `exec` is false):
`netsim/cli/validate.py:311-333,628`. -/
structure ValTopo where
  device : String → String
  plugShow : String → Option Bool

/-- Does the node have a command? `netsim/cli/validate.py:635-638`. -/
def selMatch (device : String) : Option ValSel → Bool
  | none => false
  | some .all => true
  | some (.devices l) => l.contains device

/-- `find_test_action`, `netsim/cli/validate.py:628-646`. -/
def findTestAction (t : ValTopo) (e : ValEntry) (n : String) : Option ValAction :=
  if selMatch (t.device n) e.shows then some .query
  else if selMatch (t.device n) e.execs then some .exec
  else if e.config then some .config
  else if e.suzieq then some .suzieq
  else if e.plugin then (t.plugShow n).map (fun b => if b then .query else .exec)
  else if e.wait.isSome && !(e.shows.isSome || e.execs.isSome) then some .wait
  else none

/-- `execute_validation_expression`, `netsim/cli/validate.py:699-754`. -/
def execExpr (warn report reportOk : Bool) (r : EvalRes) (c : ValCounts) : Option Bool × ValCounts :=
  match r with
  | .missing => (none, c.skipped)
  | .bad => (some false, if report then c.fail warn else c)
  | .good => (some true, if reportOk then c.pass else c)

/-- The combined result of SuzieQ records: `netsim/cli/validate.py:778-785`. -/
def suzCombine (all : Bool) (cok rok : Option Bool) : Option Bool :=
  match cok with
  | none => some (rok.getD false)
  | some x =>
    match rok with
    | none => some x
    | some y => some (if all then x && y else x || y)

/-- The loop over SuzieQ records: `netsim/cli/validate.py:773-785`. -/
def suzRecords (warn all report : Bool) : List EvalRes → Option Bool × ValCounts → Option Bool × ValCounts
  | [], s => s
  | r :: rest, s =>
    suzRecords warn all report rest
      (suzCombine all s.1 (execExpr warn report false r s.2).1, (execExpr warn report false r s.2).2)

/-- The end of `execute_suzieq_validation`: `netsim/cli/validate.py:787-797`. -/
def suzFinish (warn report : Bool) (s : Option Bool × ValCounts) : Option Bool × ValCounts :=
  match s.1 with
  | none => (none, s.2)
  | some false => (some false, if report then s.2.fail warn else s.2)
  | some true => (some true, s.2.pass)

/-- `execute_suzieq_validation`, `netsim/cli/validate.py:761-797`. -/
def execSuzieq (warn all report : Bool) (r : SuzRes) (c : ValCounts) : Option Bool × ValCounts :=
  suzFinish warn report
    (match r with
     | .error ev => execExpr warn report true ev c
     | .dict _ ev => execExpr warn report true ev c
     | .list evs => suzRecords warn all report evs (none, c))

/-- `execute_validation_plugin`, `netsim/cli/validate.py:809-840`. -/
def execPlugin (warn report : Bool) (r : PlugRes) (c : ValCounts) : Option Bool × ValCounts :=
  match r with
  | .unknown => (none, c)
  | .good => (some true, c.pass)
  | .bad => (some false, if report then c.fail warn else c)

/-- `bool(result)`, `netsim/cli/validate.py:887`. -/
def SuzRes.nonempty : SuzRes → Bool
  | .error _ => true
  | .dict b _ => b
  | .list evs => !evs.isEmpty

/-- Selection of the check: `netsim/cli/validate.py:893-901`. -/
def nodeCheck (e : ValEntry) (a : ValAction) (report : Bool) (r : ValResp) (ok : Option Bool) (c : ValCounts) :
    Option Bool × ValCounts :=
  if ok != some false && e.valid then
    if a = .suzieq then execSuzieq e.warning e.suzieqAll report r.suz c
    else execExpr e.warning report true r.eval c
  else if e.plugin then execPlugin e.warning report r.plug c
  else (ok, c)

/-- The end of `execute_node_validation`: `netsim/cli/validate.py:903-915`. -/
def nodeFinish (report : Bool) (s : Option Bool × ValCounts) : (Bool × Option Bool) × ValCounts :=
  if s.1 = some false ∧ report = false then ((false, none), s.2) else ((true, s.1), s.2)

/-- `execute_node_validation`, `netsim/cli/validate.py:845-915`. -/
def execNode (e : ValEntry) (a : Option ValAction) (report : Bool) (r : ValResp) (c : ValCounts) :
    (Bool × Option Bool) × ValCounts :=
  match a with
  | some .wait => ((true, some true), c)
  | none => ((true, none), c.skipped)
  | some .query =>
    if r.showErr then ((true, some false), c.fail e.warning)
    else nodeFinish report (nodeCheck e .query report r none c)
  | some .exec =>
    if r.execFail && report then ((true, some false), c.fail e.warning)
    else nodeFinish report (nodeCheck e .exec report r none c)
  | some .suzieq =>
    if r.suz.nonempty == e.suzieqEmpty && report then ((true, some false), c.fail e.warning)
    else nodeFinish report (nodeCheck e .suzieq report r (some (r.suz.nonempty != e.suzieqEmpty)) c)
  | some .config => nodeFinish report (nodeCheck e .config report r none c)

/-- The record of one attempt (observable: commands executed on the node and the result),
`netsim/cli/validate.py:893-996`. -/
structure ValCall where
  node : String
  time : Nat
  resp : ValResp
  /-- the node needs no further attempts -/
  proc : Bool
  ok : Option Bool
deriving DecidableEq, Repr

/-- The state of the retry loop: `netsim/cli/validate.py:960,992`; `k` counts interactions with the outside. -/
structure ValState where
  k : Nat
  ret : Option Bool
  counts : ValCounts
  log : List ValCall
deriving DecidableEq, Repr

/-- The composite result: `netsim/cli/validate.py:1001-1004`. -/
def valCombine (ret ok : Option Bool) : Option Bool :=
  if ok = some true ∧ ret = none then some true else if ok = some false then some false else ret

/-- The call for one node: `netsim/cli/validate.py:996`. -/
def valAttempt (t : ValTopo) (env : ValEnv) (stop : Nat) (e : ValEntry) (n : String) (st : ValState) :
    (Bool × Option Bool) × ValCounts :=
  execNode e (findTestAction t e n) (decide (stop ≤ (env st.k).1)) (env st.k).2 st.counts

/-- The state after the call: `netsim/cli/validate.py:996-1004`. -/
def valStep (t : ValTopo) (env : ValEnv) (stop : Nat) (e : ValEntry) (n : String) (st : ValState) : ValState :=
  ⟨st.k + 1, valCombine st.ret (valAttempt t env stop e n st).1.2, (valAttempt t env stop e n st).2,
   st.log ++ [⟨n, (env st.k).1, (env st.k).2, (valAttempt t env stop e n st).1.1, (valAttempt t env stop e n st).1.2⟩]⟩

/-- One iteration over the remaining nodes: `netsim/cli/validate.py:995-1004`. -/
def valRound (t : ValTopo) (env : ValEnv) (stop : Nat) (e : ValEntry) :
    List String → List String → ValState → List String × ValState
  | [], remaining, st => (remaining, st)
  | n :: rest, remaining, st =>
    valRound t env stop e rest
      (if (valAttempt t env stop e n st).1.1 then remaining.filter (fun x => x != n) else remaining)
      (valStep t env stop e n st)

/-- `while n_remaining`: `netsim/cli/validate.py:994-1018`. -/
def valLoop (t : ValTopo) (env : ValEnv) (stop : Nat) (e : ValEntry) : Nat → List String → ValState → Option ValState
  | _, [], st => some st
  | 0, _ :: _, _ => none
  | f + 1, n :: rem, st =>
    valLoop t env stop e f (valRound t env stop e (n :: rem) (n :: rem) st).1
      (valRound t env stop e (n :: rem) (n :: rem) st).2

/-- The wait time of a test: `netsim/cli/validate.py:986`. -/
def waitTime (nowait : Bool) (e : ValEntry) : Nat := if nowait then 0 else e.wait.getD 0

/-- The result of a test: `netsim/cli/validate.py:952-1029`. -/
inductive ValResult
  /-- `sys.exit(1)` -/
  | exit1 (c : ValCounts)
  /-- returned value, counts, number of interactions, attempts -/
  | result (r : Option Bool) (c : ValCounts) (k : Nat) (log : List ValCall)
deriving DecidableEq, Repr

/-- `execute_netlab_config`, `netsim/cli/validate.py:925-947`. -/
def execConfig (warn : Bool) (r : ValResp) (c : ValCounts) (k : Nat) : ValResult :=
  if r.cmdOk then .result (some true) c.pass (k + 1) [] else .result (some false) (c.fail warn) (k + 1) []

/-- The value returned by the retry loop: `netsim/cli/validate.py:1020-1029`. -/
def loopResult : Option ValState → Option ValResult
  | none => none
  | some st => some (.result st.ret st.counts st.k st.log)

/-- `execute_validation_test`, `netsim/cli/validate.py:952-1029`.  The start time is the first reading of the clock. -/
def execTest (t : ValTopo) (env : ValEnv) (fuel : Nat) (nowait : Bool) (e : ValEntry) (c : ValCounts) (k : Nat) :
    Option ValResult :=
  if e.nodes = [] then
    if e.wait.isSome then
      if e.stop && c.failed != 0 then some (.exit1 c) else some (.result none c k [])
    else some (.result none c.skipped k [])
  else if e.config then some (execConfig e.warning (env k).2 c k)
  else loopResult (valLoop t env ((env k).1 + waitTime nowait e) e fuel e.nodes ⟨k + 1, none, c, []⟩)

/-- `sys.exit(...)`, `netsim/cli/validate.py:1155`. -/
def exitCode (c : ValCounts) : Nat :=
  if c.failed = 0 ∧ c.warning = 0 then 0 else if c.failed ≠ 0 then 1 else 3

/-- The outcome of `netlab validate`: exit code, counts and results of executed tests,
`netsim/cli/validate.py:1115-1155`. -/
structure ValRun where
  code : Nat
  counts : ValCounts
  tests : List (ValEntry × Option Bool)
deriving DecidableEq, Repr

/-- One more executed test: `netsim/cli/validate.py:1115-1155`. -/
def ValRun.cons (e : ValEntry) (r : Option Bool) (o : Option ValRun) : Option ValRun :=
  o.map (fun x => ⟨x.code, x.counts, (e, r) :: x.tests⟩)

/-- The main loop: `netsim/cli/validate.py:1115-1155`. -/
def valRun (t : ValTopo) (env : ValEnv) (fuel : Nat) (nowait : Bool) : List ValEntry → ValCounts → Nat → Option ValRun
  | [], c, _ => some ⟨exitCode c, c, []⟩
  | e :: rest, c, k =>
    match execTest t env fuel nowait e c k with
    | none => none
    | some (.exit1 c) => some ⟨1, c, []⟩
    | some (.result r c k _) =>
      if r = some false ∧ e.stop = true then some ⟨1, c, [(e, r)]⟩
      else ValRun.cons e r (valRun t env fuel nowait rest c k)

end Netlab
