import Verif.Model.FileMap
import Mathlib.Data.List.Forall2
/-!
# Specification of file mappings
-/

namespace Netlab.Spec

/-- The value of a file name with dots in a `Box`: a chain of dictionaries -/
def NestedFile : List String → String → Val
  | [], v => .str v
  | a :: r, v => .dict [(a, NestedFile r v)]

/-- A file name with dots -/
def dottedName (l : List String) : String := ".".intercalate l

/-- A string without a colon -/
def NoColon (s : String) : Prop := ':' ∉ s.toList

/-- The lines are the mappings in `host:target` format; the name of the host file cannot contain a colon. -/
def ParsedLines (m : List String) (l : List (String × String)) : Prop := List.Forall₂ (fun s p => s = p.1 ++ ":" ++ p.2 ∧ NoColon p.1) m l

/-- Names of files with at-signs instead of dots -/
def fileName (k : String) : String := String.ofList (k.toList.map (fun c => if c = '@' then '.' else c))

/-- The text starts with this prefix. -/
def StartsWith (p s : String) : Prop := ∃ r, s = p ++ r

end Netlab.Spec
