import Verif.Model.PolicyDirection
/-!
# Vocabulary for C142
-/

namespace Netlab.Spec
open Netlab

/-- The attribute `c` has a value in a direction the device does not support -/
def BadDirection (feat : String → String → Option (List (String × DirFeature))) (c : DirCheck) (kw : String) : Prop :=
  ∃ d f, c.value = .dict d ∧ feat c.node c.attr = some f ∧ (∃ v, (kw, v) ∈ d) ∧ f.lookup kw = none

/-- The attribute `c` has a value that is not acceptable for the device in a direction -/
def BadDirValue (feat : String → String → Option (List (String × DirFeature))) (c : DirCheck) (kw : String) (v : Val) : Prop :=
  ∃ d f l, c.value = .dict d ∧ feat c.node c.attr = some f ∧ (kw, v) ∈ d ∧ f.lookup kw = some (.oneOf l) ∧
    v ∉ l ∧ Val.str (typeName v) ∉ l

/-- What an error message is about -/
def JustifiedError (feat : String → String → Option (List (String × DirFeature))) (l : List DirCheck) (e : DirError) : Prop :=
  ∃ c ∈ l, c.node = e.node ∧ c.attr = e.attr ∧
    match e.value with
    | none => BadDirection feat c e.dir
    | some v => BadDirValue feat c e.dir v

end Netlab.Spec
