import Verif.Model.LabCommands
/-!
# Vocabulary for C139, C140 and C141
-/

namespace Netlab.Spec
open Netlab

/-- The path `q` is the directory `p` or is in that directory -/
def InDir (p q : DirPath) : Prop := ∃ r, q = p ++ r

/-- The two file systems have the same files outside of a directory -/
def SameOutside (p : DirPath) (fs fs' : DirTree) : Prop := ∀ x : DirPath × String, ¬ InDir p x.1 → (x ∈ fs ↔ x ∈ fs')

/-- There is nothing in a directory, and it does not exist either -/
def NoDir (p : DirPath) (fs : DirTree) : Prop := ∀ x ∈ fs, ¬ InDir p x.1

/-- Arguments of `netlab restart` that are also understood by `netlab down`, or are removed from its arguments -/
def RestartSafe (a : RestartArg) : Prop :=
  a = .verbose ∨ a = .noConfig ∨ a = .fastConfig ∨ a = .snapshot none

/-- File names do not look like options -/
def FileNames (args : List RestartArg) : Prop :=
  ∀ f, (RestartArg.snapshot (some f) ∈ args ∨ RestartArg.topology f ∈ args) → f.toList.head? ≠ some '-'

end Netlab.Spec
