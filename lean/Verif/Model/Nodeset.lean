import Verif.Model.Groups
/-!
# Node sets (`netsim/cli/_nodeset.py`)
-/

namespace Netlab

/-- Python `str.split(sep)` with a one-character separator (`netsim/cli/_nodeset.py:50`) -/
def splitOnChar (sep : Char) : List Char → List (List Char)
  | [] => [[]]
  | c :: r =>
    if c == sep then [] :: splitOnChar sep r
    else match splitOnChar sep r with
      | [] => [[c]]
      | p :: ps => (c :: p) :: ps

/-- `netsim/cli/_nodeset.py:18-19` (`is_glob`) -/
def isGlob (s : String) : Bool := s.toList.any (fun c => c == '*' || c == '?' || c == '[')

/-- `netsim/cli/_nodeset.py:23-31` (`add_glob`); `fn` is `fnmatch.fnmatch` (Python library, not
modelled).  Returns the new list and the number of matches. -/
def addGlob (fn : String → String → Bool) (glob : String) : List String → List String → List String × Nat
  | [], acc => (acc, 0)
  | n :: rest, acc =>
    if fn n glob then
      let r := addGlob fn glob rest (if acc.contains n then acc else acc ++ [n])
      (r.1, r.2 + 1)
    else addGlob fn glob rest acc

/-- `netsim/cli/_nodeset.py:51-64`: the loop over the elements of a node set.  Returns the list of
nodes and the number of errors; `none` = fatal error in `group_members`. -/
def nodesetLoop (fn : String → String → Bool) (gs : Groups) (nodes : List String) :
    List String → List String → Option (List String × Nat)
  | [], acc => some (acc, 0)
  | e :: rest, acc =>
    if isGlob e then
      let g := addGlob fn e nodes acc
      match nodesetLoop fn gs nodes rest g.1 with
      | none => none
      | some r => some (r.1, r.2 + if g.2 == 0 then 1 else 0)
    else if gs.has e then
      match groupMembers gs nodes "node" 100 e with
      | none => none
      | some l => nodesetLoop fn gs nodes rest (acc ++ l.filter (fun n => !(acc.contains n)))
    else if !(nodes.contains e) then
      match nodesetLoop fn gs nodes rest acc with
      | none => none
      | some r => some (r.1, r.2 + 1)
    else nodesetLoop fn gs nodes rest (if acc.contains e then acc else acc ++ [e])

/-- `netsim/cli/_nodeset.py:47-67` (`parse_nodeset`): the list of nodes and the number of reported
errors.  The list is not used when there are errors (`exit_on_error`). -/
def parseNodeset (fn : String → String → Bool) (gs : Groups) (nodes : List String) (ns : String) :
    Option (List String × Nat) :=
  nodesetLoop fn gs nodes ((splitOnChar ',' ns.toList).map String.ofList) []

/-- `netsim/cli/_nodeset.py:70-76` (`get_nodeset`): the nodes of the pruned topology -/
def getNodeset {α : Type} (nodes : List (String × α)) (l : List String) : List (String × α) :=
  nodes.filter (fun n => l.contains n.1)

end Netlab
