import Verif.Model.Plugins
/-!
# Specification vocabulary for plugins
-/

namespace Netlab.Spec

/-- Following redirections, the plugin found in a directory is the specified module -/
inductive Resolves (files : String → String → Option PgFile) (path : String) : String → PgMod → Prop
  | here (name : String) (f : PgFile) (h : files path name = some f) (hr : f.redirect = none) : Resolves files path name f.mod
  | redirect (name target : String) (f : PgFile) (m : PgMod) (h : files path name = some f) (hr : f.redirect = some target) (ht : Resolves files path target m) : Resolves files path name m

/-- Plugins in the list (in the same directory) redirect to the final plugin one after another -/
inductive RedirectChain (files : String → String → Option PgFile) (path : String) : String → List String → String → PgMod → Prop
  | final (name : String) (f : PgFile) (h : files path name = some f) (hr : f.redirect = none) : RedirectChain files path name [] name f.mod
  | next (name target : String) (chain : List String) (final : String) (f : PgFile) (m : PgMod) (h : files path name = some f) (hr : f.redirect = some target)
      (ht : RedirectChain files path target chain final m) : RedirectChain files path name (name :: chain) final m

/-- The plugin is found in the first directory (of the search path) that has it -/
def FoundIn (files : String → String → Option PgFile) (paths : List String) (name : String) (m : PgMod) : Prop :=
  ∃ before path after, paths = before ++ path :: after ∧ (∀ p ∈ before, ∀ x, ¬ Resolves files p name x) ∧ Resolves files path name m

/-- The list of plugins required by a plugin -/
def requiredBy (m : PgMod) : List String :=
  match m.requires with
  | some (.list l) => l
  | _ => []

/-- Functions executed for an action (as a trace) -/
def executed (mods : List PgMod) (action : String) : List PgMod := pgExecute (fun m _ t => t ++ [m]) action mods []

end Netlab.Spec
