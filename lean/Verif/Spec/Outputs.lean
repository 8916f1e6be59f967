import Verif.Model.Outputs
/-!
# Specification of output modules
-/

namespace Netlab.Spec

/-- The documented syntax of an output specification: `module:format:format...=file,file...` -/
def outSyntax (m : List Char) (fmts : List (List Char)) (files : Option (List (List Char))) : List Char :=
  [':'].intercalate (m :: fmts) ++ (match files with
    | none => []
    | some l => '=' :: [','].intercalate l)

/-- The text has none of these characters. -/
def Without (cs : List Char) (s : List Char) : Prop := ∀ c ∈ cs, c ∉ s

/-- Topology data without some keys -/
def Removed (topo : List (String × Val)) (keys : List String) (v : List (String × Val)) : Prop :=
  ∀ k, v.lookup k = if k ∈ keys then none else topo.lookup k

/-- The content of a file generated for a tool: produced by the output module of the tool, or by a template -/
def ToolContent (render : Option (String → String)) (tmpl : String → Option String) (c : ToolCfg) (text : String) : Prop :=
  (∃ f g, c.render = some f ∧ render = some g ∧ text = g f) ∨ (∃ t, c.render = none ∧ c.template = some t ∧ tmpl t = some text)

/-- The entry is not complete: there's no destination file, or neither output format nor template. -/
def Incomplete (c : ToolCfg) : Prop := c.dest = none ∨ (c.render = none ∧ c.template = none)

end Netlab.Spec
