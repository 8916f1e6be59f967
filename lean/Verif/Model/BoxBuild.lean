import Verif.Model.Confirm
/-!
# Building a Vagrant box: `netlab libvirt package` (`netsim/cli/libvirt_actions/package.py`)

A step of the process can succeed, raise an exception, stop the program (`log.fatal`, used when an external command fails) or be
interrupted by the user.  The outcome of every step is a parameter, together with the things left behind by a step that fails.
Commands that remove things (`netsim/cli/libvirt_actions/package.py:98-142`) are assumed to work: their failures are ignored or
reported, and do not change the rest of the process.
-/

namespace Netlab

/-- Outcomes of a step, `netsim/cli/libvirt_actions/package.py:385-453`. -/
inductive BbOut
  | ok
  | exception
  | exit
  | interrupt
deriving DecidableEq, Repr

/-- Steps of the process, `netsim/cli/libvirt_actions/package.py:385-435`. -/
inductive BbStep
  /-- `cleanup()`: the virtual machine and the network are removed -/
  | clean
  | startNet
  | workdir
  | preinstall
  | disk
  | iso
  | vm
  | stopNet
  | box
  /-- `cleanup(workdir)`: the virtual machine, the network and the build directory are removed -/
  | cleanAll
  | install
deriving DecidableEq, Repr

/-- Things on the host used or created by the process, `netsim/cli/libvirt_actions/package.py:88-435`. -/
structure BbHost where
  vm : Bool
  net : Bool
  dir : Bool
  box : Bool
  installed : Bool
deriving DecidableEq, Repr

/-- Effects of a step, `netsim/cli/libvirt_actions/package.py:88-383`: `left` is the thing left behind by the step when it fails. -/
def bbEffect (o : BbOut) (left : Bool) (s : BbStep) (h : BbHost) : BbHost :=
  match s with
  | .clean => if o = .ok then { h with vm := false, net := false } else h
  | .cleanAll => if o = .ok then { h with vm := false, net := false, dir := false } else h
  | .startNet => { h with net := if o = .ok then true else left }
  | .workdir => { h with dir := if o = .ok then true else left }
  | .vm => { h with vm := if o = .ok then false else left }
  | .stopNet => if o = .ok then { h with net := false } else h
  | .box => { h with box := if o = .ok then true else left }
  | .install => { h with installed := if o = .ok then true else h.installed }
  | .preinstall => h
  | .disk => h
  | .iso => h

/-- A sequence of steps: the first step that fails is the last one, `netsim/cli/libvirt_actions/package.py:385-435`. -/
def bbSteps (out : BbStep → BbOut) (left : BbStep → Bool) (h : BbHost) : List BbStep → BbHost × BbOut × List BbStep
  | [] => (h, .ok, [])
  | s :: r =>
    let h' := bbEffect (out s) (left s) s h
    if out s = .ok then
      let x := bbSteps out left h' r
      (x.1, x.2.1, s :: x.2.2)
    else (h', out s, [s])

/-- `'name' in skip`, `netsim/cli/libvirt_actions/package.py:406-434`: a test for a part of the text. -/
def bbUnless (skip name : String) (s : BbStep) : List BbStep := if textIn name.toList skip.toList then [] else [s]

/-- Steps before the `try` statement, `netsim/cli/libvirt_actions/package.py:397-407`. -/
def bbBefore (skip : String) : List BbStep := [.clean, .startNet, .workdir] ++ bbUnless skip "preinstall" .preinstall

/-- Steps in the `try` statement, `netsim/cli/libvirt_actions/package.py:408-420`. -/
def bbBody (skip : String) : List BbStep :=
  bbUnless skip "disk" .disk ++ bbUnless skip "iso" .iso ++ bbUnless skip "vm" .vm ++ [.stopNet] ++ bbUnless skip "box" .box ++ [.cleanAll]

/-- `cleanup(workdir)` after a failure, `netsim/cli/libvirt_actions/package.py:135-142`. -/
def bbClean (h : BbHost) : BbHost := bbEffect .ok false .cleanAll h

/-- `build` and `run`, `netsim/cli/libvirt_actions/package.py:385-453`: the state of the host, the outcome and the steps.  `labs` is true
when there are labs in the status file.  The answer of the user is not used: `box_build_confirm`
(`netsim/cli/libvirt_actions/package.py:68-83`) just returns. -/
def bbRun (labs : Bool) (answers : List String) (skip : String) (out : BbStep → BbOut) (left : BbStep → Bool) (h : BbHost) :
    BbHost × BbOut × List BbStep :=
  if labs then (h, .exit, [])
  else match confirm answers with
    | none => (h, .exit, [])
    | some _ =>
      let r1 := bbSteps out left h (bbBefore skip)
      if r1.2.1 = .interrupt then (bbClean r1.1, .interrupt, r1.2.2)
      else if r1.2.1 ≠ .ok then r1
      else
        let r2 := bbSteps out left r1.1 (bbBody skip)
        let done := r1.2.2 ++ r2.2.2
        match r2.2.1 with
        | .interrupt => (bbClean r2.1, .interrupt, done)
        | .exit => (r2.1, .exit, done)
        | .exception => (if skip = "" then bbClean r2.1 else r2.1, .exception, done)
        | .ok =>
          let r3 := bbSteps out left r2.1 (bbUnless skip "install" .install)
          (if r3.2.1 = .interrupt then bbClean r3.1 else r3.1, r3.2.1, done ++ r3.2.2)

/-- The commands in a text, `netsim/cli/external_commands.py:98-99`. -/
def commandWords (cmd : List Char) : List (List Char) := (splitOnChar ' ' cmd).filter (fun w => !w.isEmpty)

/-- `lp_create_vm_disk`, `netsim/cli/libvirt_actions/package.py:165-184`: commands executed, and whether the disk was created.
`glob` are the VMDK files in the current directory, `ok` tells whether a command succeeds. -/
def vmDisk (name workdir : List Char) (glob : List (List Char)) (ok : List (List Char) → Bool) :
    List (List (List Char)) × Bool :=
  let target := workdir ++ "/vm.qcow2".toList
  let last (n : List Char) : List (List Char) :=
    if textIn ".vmdk".toList n then commandWords ("qemu-img convert -f vmdk -O qcow2 ".toList ++ n ++ [' '] ++ target)
    else commandWords ("cp ".toList ++ n ++ [' '] ++ target)
  if textIn ".ova".toList name then
    let tar := commandWords ("tar xvf ".toList ++ name)
    if ok tar then
      match glob with
      | [] => ([tar], false)
      | n :: _ => ([tar, last n], ok (last n))
    else ([tar], false)
  else ([last name], ok (last name))

/-- The first character of a version, `netsim/cli/libvirt_actions/package.py:261`. -/
def versionStart (c : Char) : Bool := c.isDigit || c.isAlpha || c == '_'

/-- `valid_version`, `netsim/cli/libvirt_actions/package.py:260-270`. -/
def validVersion (v : String) : Bool :=
  match v.toList with
  | [] => false
  | c :: r => versionStart c && decide (r.length ≤ 15) && r.all (fun x => versionStart x || x == '.' || x == '-')

/-- The loop asking for the version, `netsim/cli/libvirt_actions/package.py:343-346`: `none` when the user gives up. -/
def askVersion (answers : List String) : Option String := answers.find? validVersion

end Netlab
