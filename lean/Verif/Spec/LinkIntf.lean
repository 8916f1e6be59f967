import Verif.Model.Box
import Verif.Model.Gateway
/-!
# Specification vocabulary for interface data
-/

namespace Netlab.Spec

/-- The value of an attribute after copying it from a link value to an interface value -/
def CopiedAttr (l d : Option Val) : Option Val :=
  match l, d with
  | some (.dict a), some (.dict b) => some (.dict (mergeDict a b))
  | l, none => l
  | _, d => d

/-- A parameter in gateway data of an interface -/
def GwParam (g : Option GwVal) (k : String) : Option Val :=
  match g with
  | some (.data e) => e.lookup k
  | _ => none

end Netlab.Spec
