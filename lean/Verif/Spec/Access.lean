import Verif.Model.Access
import Mathlib.Data.List.Forall2

namespace Netlab.Spec

open Netlab

/-- A value that is true in Python -/
def TrueValue : Val → Prop
  | .null => False
  | .bool b => b = true
  | .int i => i ≠ 0
  | .str s => s ≠ ""
  | .list l => l ≠ []
  | .dict d => d ≠ []

/-- The value, when it is true -/
noncomputable def whenTrue (v : Option Val) : Option Val :=
  open Classical in v.bind (fun x => if TrueValue x then some x else none)

/-- The management address of the node -/
def MgmtAddress (node : List (String × Val)) : Option Val :=
  match node.lookup "mgmt" with
  | some (.dict d) => d.lookup "ipv4"
  | _ => none

/-- The values a node attribute or group variable cannot override are set from ports forwarded to the host and from inventory settings of the provider; then come the
attributes of the node, its name or management address, and group variables. -/
noncomputable def HostSetting (groupVars : List (String × Val)) (ignore : List String) (inventory node : List (String × Val)) (k : String) : Option Val :=
  (inventory.lookup k).or ((if k ∈ ignore then none else node.lookup k).or
    ((if k = "ansible_host" then (whenTrue (node.lookup "hostname")).or (whenTrue (MgmtAddress node)) else if k = "id" then whenTrue (node.lookup "id") else none).or
      (groupVars.lookup k)))

/-- The text contains `$@`. -/
def HasArgs (s : List Char) : Prop := ∃ a b, s = a ++ '$' :: '@' :: b

/-- Parts of a text with a separator between them -/
def Joined (sep : List Char) : List (List Char) → List Char
  | [] => []
  | [x] => x
  | x :: y :: r => x ++ sep ++ Joined sep (y :: r)

/-- All commands in a probe -/
inductive ProbeCommand : AcProbe → List String → Prop
  | cmd (c : List String) : ProbeCommand (.cmd c) c
  | box (c : List String) : ProbeCommand (.box c) c
  | list (l : List AcProbe) (p : AcProbe) (c : List String) : p ∈ l → ProbeCommand p c → ProbeCommand (.list l) c

end Netlab.Spec
