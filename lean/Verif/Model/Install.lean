/-!
# `netlab install` (`netsim/cli/install.py`)
-/

namespace Netlab

/-- The system: is the user `root`, are there commands `sudo`, `apt-get` and `pip3`, do we run in a virtual environment, and is Python
externally managed (`netsim/cli/install.py:67-159`) -/
structure InstSys where
  root : Bool
  sudo : Bool
  apt : Bool
  pip : Bool
  venv : Bool
  managed : Bool
  deriving Repr, DecidableEq

/-- Arguments (`netsim/cli/install.py:20-61`) -/
structure InstArgs where
  yes : Bool := false
  user : Bool := false
  verbose : Bool := false
  quiet : Bool := false
  deriving Repr, DecidableEq

/-- Questions (`netsim/cli/install.py:77`, 90, 118) -/
inductive InstAsk where
  | noSudo
  | managed (script : String)
  | system (script : String)
  deriving Repr, DecidableEq

/-- Installation script: does the file exist, does it use `apt-get` and `pip3` (`netsim/cli/install.py:129-159,183-186`)? -/
structure InstScript where
  name : String
  present : Bool := true
  apt : Bool := false
  pip : Bool := false
  deriving Repr, DecidableEq

/-- Environment variables used by scripts: `SUDO` (is it set?), `FLAG_PIP`, `FLAG_USER` (`netsim/cli/install.py:67-121`) -/
structure InstEnv where
  sudo : Bool := false
  pip : List String := []
  user : Bool := false
  deriving Repr, DecidableEq

/-- `netsim/cli/install.py:102-121` (`set_sudo_flag`); `none` is a fatal error. -/
def instSudo (sys : InstSys) (ans : InstAsk → Bool) (e : InstEnv) : Option InstEnv :=
  if sys.root then some { e with sudo := false }
  else if sys.sudo then some { e with sudo := true }
  else if ans .noSudo then some { e with sudo := false }
  else none

/-- `netsim/cli/install.py:67-96` (`check_crazy_pip3`) -/
def instPip (sys : InstSys) (args : InstArgs) (ans : InstAsk → Bool) (script : String) (e : InstEnv) : Option InstEnv :=
  if sys.managed && !args.yes && !ans (.managed script) then none
  else
    let e := if sys.managed then { e with pip := e.pip ++ ["--break-system-packages"] } else e
    if !args.user && !args.yes && !ans (.system script) then none
    else if args.user then some { e with sudo := false, pip := e.pip ++ ["--user"], user := true }
    else some e

/-- `netsim/cli/install.py:129-159` (`check_script`) -/
def instCheck (sys : InstSys) (args : InstArgs) (ans : InstAsk → Bool) (s : InstScript) (e : InstEnv) : Option InstEnv :=
  if s.apt && !sys.apt then none
  else if !s.pip then some e
  else if !sys.pip then none
  else if sys.venv then some { e with sudo := false }
  else instPip sys args ans s.name e

/-- The loop in `netsim/cli/install.py:182-201`: executed scripts with their environment, and did the command complete; `ok` says whether
a script succeeds. -/
def instScripts (sys : InstSys) (args : InstArgs) (ans : InstAsk → Bool) (ok : String → Bool) (e : InstEnv) :
    List InstScript → List (InstScript × InstEnv) × Bool
  | [] => ([], true)
  | s :: r =>
    if !s.present then ([], false)
    else match instCheck sys args ans s e with
      | none => ([], false)
      | some e' =>
        if ok s.name then
          let x := instScripts sys args ans ok e' r
          ((s, e') :: x.1, x.2)
        else ([(s, e')], false)

/-- Flags based on arguments (`netsim/cli/install.py:168-177`) -/
def instFlags (args : InstArgs) : InstEnv :=
  { pip := if args.quiet then ["-qq"] else if args.verbose then ["-v"] else [] }

/-- `netsim/cli/install.py:161-201` (`run`) -/
def instRun (sys : InstSys) (args : InstArgs) (ans : InstAsk → Bool) (ok : String → Bool) (l : List InstScript) :
    List (InstScript × InstEnv) × Bool :=
  if l.isEmpty then ([], false)
  else match instSudo sys ans (instFlags args) with
    | none => ([], false)
    | some e => instScripts sys args ans ok e l

end Netlab
