import Verif.Model.ExtraFiles
import Verif.Spec.FileMap
/-!
# Specification of files generated for containers
-/

namespace Netlab.Spec

/-- Templates of a file, most specific first: the template of the device in the directory of a custom configuration in the user directories for files that are
custom configurations of the node.  For other files, templates in the user directories, templates of the provider and (daemons only) templates in the package; every
directory is searched for a template of the device and, for daemons, of the parent device. -/
def templateCandidates (fs : Fs) (P : XtPaths) (n : XtNode) (f : String) : List String :=
  if f ∈ n.config then P.custom.map (fun d => fs.join (d ++ "/" ++ f) (n.device ++ ".j2"))
  else
    let dirs := P.templates ++ P.provider :: (if n.daemon = true then [P.daemons] else [])
    let devices := n.device :: (match n.daemon, n.parent with | true, some d => [d] | _, _ => [])
    dirs.flatMap (fun d => devices.map (fun s => fs.join (d ++ "/" ++ s) (f ++ ".j2")))

/-- The template of a file is its first existing candidate. -/
def TemplateOf (fs : Fs) (P : XtPaths) (n : XtNode) (f t : String) : Prop :=
  ∃ pre post, templateCandidates fs P n f = pre ++ t :: post ∧ fs.exist t = true ∧ ∀ q ∈ pre, fs.exist q = false

/-- A text contains another one. -/
def HasText (x s : String) : Prop := ∃ a b, s = a ++ x ++ b

/-- A configuration file of a node: its name is the name of the node, or starts with the name of the node followed by a dot. -/
def ConfigFileOf (n f : String) : Prop := f = n ∨ StartsWith (n ++ ".") f

end Netlab.Spec
