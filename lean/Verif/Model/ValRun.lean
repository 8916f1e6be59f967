import Verif.Model.Validation
import Verif.Model.Nodeset
import Verif.Model.LinkNorm
import Verif.Model.Evpn
/-!
# Execution of validation tests: commands, results, waiting and selection of tests

`netsim/cli/validate.py:205-251`, `netsim/cli/validate.py:412-614`, `netsim/cli/validate.py:651-676`, `netsim/cli/validate.py:1054-1080`

Log messages are left out; errors are counted.
-/

namespace Netlab

/-! ### Commands -/

/-- A value of a test action: a text, a list of words, or something else (`netsim/cli/validate.py:412-456`) -/
inductive VrVal where
  | text (s : List Char)
  | words (l : List (List Char))
  | other
  deriving DecidableEq

/-- An action in a validation test: one value for all devices or a value for every device (`netsim/cli/validate.py:415`) -/
inductive VrAction where
  | one (v : VrVal)
  | devices (d : List (String × VrVal))

/-- Results of the functions that can crash or report errors (`netsim/cli/validate.py:412-441`) -/
inductive VrOut (α : Type) where
  | value (v : α)
  | error
  | fatal
  | crash
  deriving DecidableEq

/-- `netsim/cli/validate.py:412-441` (`get_entry_value`).  `plugin` is the result of the validation plugin (no value when the test has no plugin; an error when it
cannot be evaluated), `render` is the Jinja2 renderer.  A missing device has an empty (default) value, a failed plugin returns no value. -/
def vrValue (render : List Char → Option (List Char)) (action : Option VrAction) (plugin : Option (Option VrVal)) (device : String) : VrOut VrVal :=
  let v : VrOut VrVal :=
    match action with
    | some (.one v) => .value v
    | some (.devices d) => .value ((d.lookup device).getD .other)
    | none =>
      match plugin with
      | none => .crash
      | some none => .error
      | some (some v) => .value v
  match v with
  | .value (.text s) =>
    if pySubstr "{{".toList s then
      match render s with
      | none => .fatal
      | some r => .value (.text r)
    else .value (.text s)
  | x => x

/-- `netsim/cli/validate.py:449-456` (`get_exec_list`): an error in the plugin results in an empty list and a logged error. -/
def vrExec (v : VrOut VrVal) : VrOut (List (List Char)) × Nat :=
  match v with
  | .value (.words l) => (.value l, 0)
  | .value (.text s) => (.value (splitOnChar ' ' s), 0)
  | .value .other => (.value [], 0)
  | .error => (.value [], 1)
  | .fatal => (.fatal, 0)
  | .crash => (.crash, 0)

/-! ### Results -/

/-- The text that will be parsed as JSON: an object, or a list that has to be wrapped in an object (`netsim/cli/validate.py:482-487`) -/
inductive VrJson where
  | list (s : List Char)
  | object (s : List Char)
  deriving DecidableEq

/-- Python `s.find(c,0,hi)` (`netsim/cli/validate.py:475`) -/
def vrFind (s : List Char) (c : Char) (hi : Nat) : Option Nat := (s.take hi).findIdx? (· == c)

/-- `netsim/cli/validate.py:475-477`: a smaller position of the character -/
def vrLower (s : List Char) (low : Nat) (c : Char) : Nat :=
  match vrFind s c low with
  | some p => if p < low then p else low
  | none => low

/-- `netsim/cli/validate.py:473-477`: the earliest position of an opening bracket -/
def vrLow (s : List Char) : Nat := ['[', '{'].foldl (vrLower s) s.length

/-- `netsim/cli/validate.py:471-487` (`parse_JSON`) without the JSON parser -/
def vrJson (text : List Char) : VrJson :=
  let s := pyStrip text
  let low := vrLow s
  let r := if low < s.length then s.drop low else s
  if r.head? = some '[' then .list r else .object r

/-- What a command returned: the output, or a failure (`netsim/cli/validate.py:512-523`) -/
inductive VrCmd where
  | text (s : List Char)
  | failed

/-- `netsim/cli/validate.py:494-538` (`get_parsed_result`) and `netsim/cli/validate.py:575-614` (`get_suzieq_result`) after the command was found: the parsed value,
or no value on a reported failure.  `parse` is the JSON parser. -/
def vrParsed (parse : VrJson → Option Val) (run : List (List Char) → VrCmd) (cmd : List (List Char)) : Option Val :=
  if cmd = [] then none
  else
    match run cmd with
    | .failed => none
    | .text s => parse (vrJson s)

/-- `netsim/cli/validate.py:575-582`: the SuzieQ command -/
def vrSuzieq (show_ : List Char) (node : Option (List Char)) : List Char :=
  show_ ++ (match node with | some n => " --hostname ".toList ++ n | none => []) ++ " --format json".toList

/-! ### Waiting -/

/-- `netsim/cli/validate.py:651-676` (`wait_before_testing`): the sequence of sleeps (in seconds); `wait` is the initial wait time -/
def vrSleeps (wait : Int) : List Int :=
  if h : 0 ≤ wait then (if wait < 5 then wait else 5) :: vrSleeps (wait - 5) else []
termination_by (wait + 5).toNat
decreasing_by omega

/-- `netsim/cli/validate.py:656-659`: the initial wait time.  `now` is the current time; times are whole numbers of seconds. -/
def vrWait (wait : Option Int) (start : Option Int) (now : Int) : Option Int :=
  match wait, start with
  | none, _ => none
  | some w, none => some w
  | some w, some s => some (s + w - now)

/-- `netsim/cli/validate.py:238-251` (`extend_device_wait_time`): the wait time of a test after it was extended by the settings of devices (no value for devices
without settings, or with invalid settings) -/
def vrExtend (wait : Option Int) (devices : List (Option Int)) : Option Int :=
  devices.foldl (fun w d => match d with | some v => if w.getD 0 < v then some v else w | none => w) wait

/-- `netsim/cli/validate.py:213-219`: the slowest device so far -/
def vrSlower (s : Int × Option String) (d : String × Option Int) : Int × Option String :=
  match d.2 with
  | some v => if v = 0 then s else if s.1 < v then (v, some d.1) else s
  | none => s

/-- `netsim/cli/validate.py:205-219`: the longest initial delay and the device that needs it -/
def vrDelay (devices : List (String × Option Int)) : Int × Option String :=
  devices.foldl vrSlower (0, none)

/-- `netsim/cli/validate.py:221-230`: extend the first non-zero wait time -/
def vrExtendFirst (delay : Int) : List (Option Int) → List (Option Int)
  | [] => []
  | w :: r => if w.getD 0 = 0 then w :: vrExtendFirst delay r else (w.map (· + delay)) :: r

/-- `netsim/cli/validate.py:205-230` (`extend_first_wait_time`) -/
def vrFirst (devices : List (String × Option Int)) (tests : List (Option Int)) : List (Option Int) :=
  let d := (vrDelay devices).1
  if d = 0 then tests else vrExtendFirst d tests

/-! ### Selection of tests -/

/-- A validation test and the nodes it's executed on (`netsim/cli/validate.py:1071-1080`) -/
structure VrTest where
  name : String
  nodes : List String
  deriving DecidableEq

/-- `netsim/cli/validate.py:1054-1080` (`filter_by_nodes`): selected tests and the number of errors; `pending` says there were errors before -/
def vrFilter (nodes : List String) (pending : Bool) (args : Option (List String)) (tests : List VrTest) : List VrTest × Nat :=
  match args with
  | none => (tests, 0)
  | some sel =>
    let bad := (sel.filter (fun n => !nodes.contains n)).length
    if pending ∨ bad ≠ 0 then (tests, bad)
    else
      let keep := tests.filter (fun t => t.nodes.any sel.contains)
      if keep = [] then ([], 1)
      else (keep.map (fun t => { t with nodes := t.nodes.filter sel.contains }), 0)

end Netlab
