import Verif.Model.TestPlugin
/-!
# Specification of validation plugins
-/

namespace Netlab.Spec

/-- The plugin for a device: the first file on the search path.  Files in directories before it do not exist. -/
inductive PluginFile (env : PlEnv) (device : String) : PlFile → Prop where
  | found (pre post : List String) (p : String) (h : env.path = pre ++ p :: post) (hp : ∀ q ∈ pre, env.file q device = .missing)
      (hf : env.file p device ≠ .missing) : PluginFile env device (env.file p device)
  | none (hp : ∀ q ∈ env.path, env.file q device = .missing) : PluginFile env device .missing

/-- The first request for the plugin of a device in a sequence of requests -/
def FirstRequest (h : List PlCall) (device : String) (c : PlCall) : Prop :=
  ∃ pre post, h = pre ++ c :: post ∧ c.device = device ∧ c.plugin.isSome ∧ ∀ x ∈ pre, x.device = device → x.plugin = none

/-- The action provided by a plugin: `show` functions are used before `exec` functions. -/
inductive PluginAction (func : String) : PlFile → Option Bool → Prop where
  | shows (fs : List String) (h : "show_" ++ func ∈ fs) : PluginAction func (.ok fs) (some true)
  | execs (fs : List String) (h : "show_" ++ func ∉ fs) (h' : "exec_" ++ func ∈ fs) : PluginAction func (.ok fs) (some false)
  | neither (fs : List String) (h : "show_" ++ func ∉ fs) (h' : "exec_" ++ func ∉ fs) : PluginAction func (.ok fs) none
  | missing : PluginAction func .missing none
  | broken : PluginAction func .broken none

/-- There's a command for the device: the same command is used on all devices, or there are commands for devices. -/
def HasCommand (device : String) (s : Option ValSel) : Prop := s = some .all ∨ ∃ l, s = some (.devices l) ∧ device ∈ l

end Netlab.Spec
