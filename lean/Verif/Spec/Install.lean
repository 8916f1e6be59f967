import Verif.Model.Install
/-!
# Specification of `netlab install`
-/

namespace Netlab.Spec

/-- All requirements of a script are met. -/
def InstReady (sys : InstSys) (args : InstArgs) (ans : InstAsk → Bool) (s : InstScript) : Prop :=
  s.present = true ∧ (s.apt = true → sys.apt = true) ∧ (s.pip = true → sys.pip = true) ∧
  (s.pip = true → sys.venv = false → args.yes = false →
    (sys.managed = true → ans (.managed s.name) = true) ∧ (args.user = false → ans (.system s.name) = true))

end Netlab.Spec
