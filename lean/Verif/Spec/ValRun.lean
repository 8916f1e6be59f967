import Verif.Model.ValRun
import Verif.Spec.Access

namespace Netlab.Spec

open Netlab

/-- A character that starts a JSON list or object -/
def JsonStart (c : Char) : Prop := c = '[' ∨ c = '{'

/-- The text without whitespace at its end -/
def TrimmedEnd (s body : List Char) : Prop :=
  ∃ ws, s = body ++ ws ∧ (∀ c ∈ ws, c.isWhitespace = true) ∧ (∀ c, body.getLast? = some c → c.isWhitespace = false)

/-- The text without whitespace at its start and at its end -/
def TrimmedText (s body : List Char) : Prop :=
  ∃ a b, s = a ++ body ++ b ∧ (∀ c ∈ a, c.isWhitespace = true) ∧ (∀ c ∈ b, c.isWhitespace = true) ∧ (∀ c, body.head? = some c → c.isWhitespace = false) ∧
    (∀ c, body.getLast? = some c → c.isWhitespace = false)

end Netlab.Spec
