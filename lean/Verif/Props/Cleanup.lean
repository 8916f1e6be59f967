import Verif.Spec.Cleanup
/-!
# Removal of lab files (C123)
-/

namespace Netlab

open Netlab.Spec

theorem Spec.OnlyRemoved.refl (names : List FsPath) (fs : LabFs) : OnlyRemoved names fs fs := fun _ => .inl rfl

theorem Spec.OnlyRemoved.trans {names : List FsPath} {a b c : LabFs} (h1 : OnlyRemoved names a b) (h2 : OnlyRemoved names b c) : OnlyRemoved names a c := by
  intro q
  rcases h2 q with h | h
  · rcases h1 q with h' | h'
    · exact .inl (h.trans h')
    · exact .inr ⟨h.trans h'.1, h'.2⟩
  · exact .inr h

theorem Spec.OnlyRemoved.mono {n m : List FsPath} {a b : LabFs} (h : OnlyRemoved n a b) (hs : ∀ p ∈ n, p ∈ m) : OnlyRemoved m a b := by
  intro q
  rcases h q with h | ⟨h, p, hp, hq⟩
  · exact .inl h
  · exact .inr ⟨h, p, hs p hp, hq⟩

theorem onlyRemoved_remove (fs : LabFs) (p : FsPath) (names : List FsPath) (hp : p ∈ names) : OnlyRemoved names fs (fsRemove fs p) := by
  intro q
  unfold fsRemove
  split
  · rename_i h
    exact .inr ⟨rfl, p, hp, List.isPrefixOf_iff_prefix.1 h⟩
  · exact .inl rfl

theorem onlyRemoved_part (fs : LabFs) (p : FsPath) (r names : List FsPath) (hp : p ∈ names) : OnlyRemoved names fs (fsRemovePart fs p r) := by
  intro q
  unfold fsRemovePart
  split
  · rename_i h
    simp only [Bool.and_eq_true] at h
    exact .inr ⟨rfl, p, hp, List.isPrefixOf_iff_prefix.1 h.1.1⟩
  · exact .inl rfl

theorem cleanupOne_only (dry : Bool) (fs : LabFs) (p : FsPath) (fate : RmFate) (names : List FsPath) (hp : p ∈ names) : OnlyRemoved names fs (fsCleanupOne dry fs p fate).1 := by
  unfold fsCleanupOne
  split
  · split
    · exact .refl _ _
    · split
      · exact .refl _ _
      · cases fate with
        | ok => exact onlyRemoved_remove _ _ _ hp
        | failed r => exact onlyRemoved_part _ _ _ _ hp
  · split
    · split
      · exact .refl _ _
      · cases fate with
        | ok => exact onlyRemoved_remove _ _ _ hp
        | failed r => exact .refl _ _
    · exact .refl _ _

theorem cleanup_only (dry : Bool) (l : List (FsPath × RmFate)) (fs : LabFs) : OnlyRemoved (l.map (·.1)) fs (fsCleanup dry l fs).1 := by
  induction l generalizing fs with
  | nil => exact .refl _ _
  | cons x r ih =>
    obtain ⟨p, fate⟩ := x
    have h1 := cleanupOne_only dry fs p fate (((p, fate) :: r).map (·.1)) (by simp)
    unfold fsCleanup
    rcases hs : fsCleanupOne dry fs p fate with ⟨fs', b⟩
    rw [hs] at h1
    cases b with
    | false => exact h1
    | true => exact h1.trans ((ih fs').mono (fun q hq => by simpa using Or.inr (by simpa using hq)))

theorem toolOne_only (dry : Bool) (fs : LabFs) (t : String) (fate : RmFate) (i : Bool) (names : List FsPath) (hp : [t] ∈ names) : OnlyRemoved names fs (toolCleanupOne dry fs t fate i).1 := by
  unfold toolCleanupOne
  split
  · exact .refl _ _
  · cases fate with
    | ok => exact onlyRemoved_remove _ _ _ hp
    | failed r => exact onlyRemoved_part _ _ _ _ hp

theorem tool_only (dry : Bool) (l : List (String × RmFate × Bool)) (fs : LabFs) : OnlyRemoved (l.map (fun x => [x.1])) fs (toolCleanup dry l fs).1 := by
  induction l generalizing fs with
  | nil => exact .refl _ _
  | cons x r ih =>
    obtain ⟨t, fate, i⟩ := x
    have h1 := toolOne_only dry fs t fate i (((t, fate, i) :: r).map (fun x => [x.1])) (by simp)
    unfold toolCleanup
    rcases hs : toolCleanupOne dry fs t fate i with ⟨fs', b⟩
    rw [hs] at h1
    cases b with
    | false => exact h1
    | true => exact h1.trans ((ih fs').mono (fun q hq => List.mem_cons_of_mem _ hq))

/-- **C123**: whatever happens during the cleanup -- failures or interruptions -- only directories of tools and files on the cleanup list (and objects below them) are removed,
and nothing is added or changed. -/
theorem C123_only (dry : Bool) (tools : List (String × RmFate × Bool)) (files : List (FsPath × RmFate)) (fs : LabFs) :
    OnlyRemoved (tools.map (fun x => [x.1]) ++ files.map (·.1)) fs (downFiles dry tools files fs).1 := by
  unfold downFiles
  split
  · have h1 := tool_only dry tools fs
    rcases hs : toolCleanup dry tools fs with ⟨fs', b⟩
    rw [hs] at h1
    have h1 := h1.mono (m := tools.map (fun x => [x.1]) ++ files.map (·.1)) (fun p hp => List.mem_append_left _ hp)
    cases b with
    | false => exact h1
    | true => exact h1.trans ((cleanup_only dry files fs').mono (fun p hp => List.mem_append_right _ hp))
  · exact .refl _ _

/-- **C123**: nothing is removed in dry-run mode. -/
theorem C123_dry_run (tools : List (String × RmFate × Bool)) (files : List (FsPath × RmFate)) (fs : LabFs) : (downFiles true tools files fs).1 = fs := by
  have h1 : ∀ (l : List (String × RmFate × Bool)), toolCleanup true l fs = (fs, true) := by
    intro l
    induction l with
    | nil => rfl
    | cons x r ih =>
      obtain ⟨t, fate, i⟩ := x
      simp only [toolCleanup, toolCleanupOne, if_true]
      exact ih
  have h2 : ∀ (l : List (FsPath × RmFate)), fsCleanup true l fs = (fs, true) := by
    intro l
    induction l with
    | nil => rfl
    | cons x r ih =>
      obtain ⟨p, fate⟩ := x
      have : fsCleanupOne true fs p fate = (fs, true) := by
        unfold fsCleanupOne
        split
        · rfl
        · split <;> rfl
      simp only [fsCleanup, this]
      exact ih
  unfold downFiles
  split
  · rw [h1]
    dsimp only
    rw [h2]
  · rfl

/-- Removed objects are not recreated. -/
theorem gone_only {names : List FsPath} {a b : LabFs} (h : OnlyRemoved names a b) {p : FsPath} (hg : Gone a p) : Gone b p := by
  rcases h p with h | h
  · unfold Gone
    rw [h]
    exact hg
  · exact .inl h.1

theorem cleanupOne_gone (fs : LabFs) (p : FsPath) (fate : RmFate) (h : (fsCleanupOne false fs p fate).2 = true) : Gone (fsCleanupOne false fs p fate).1 p := by
  have hrem : Gone (fsRemove fs p) p := by
    left
    simp [fsRemove]
  unfold fsCleanupOne at *
  by_cases h1 : fsIsDir fs p = true
  · rw [if_pos h1] at h ⊢
    rw [if_neg (by decide)] at h ⊢
    by_cases h2 : fs p = some .linkToDir
    · rw [if_pos h2] at h
      cases h
    · rw [if_neg h2] at h ⊢
      cases fate with
      | ok => exact hrem
      | failed r => cases h
  · rw [if_neg h1] at h ⊢
    by_cases h2 : fsExists fs p = true
    · rw [if_pos h2] at h ⊢
      rw [if_neg (by decide)] at h ⊢
      cases fate with
      | ok => exact hrem
      | failed r => cases h
    · rw [if_neg h2]
      unfold Gone
      cases hk : fs p with
      | none => exact .inl hk
      | some k =>
        cases k with
        | dangling => exact .inr hk
        | file => simp [fsExists, hk] at h2
        | dir => simp [fsExists, hk] at h2
        | linkToDir => simp [fsExists, hk] at h2

theorem cleanup_gone (l : List (FsPath × RmFate)) (fs : LabFs) (h : (fsCleanup false l fs).2 = true) : ∀ x ∈ l, Gone (fsCleanup false l fs).1 x.1 := by
  induction l generalizing fs with
  | nil =>
    intro x hx
    cases hx
  | cons y r ih =>
    obtain ⟨p, fate⟩ := y
    have h1 := cleanupOne_gone fs p fate
    unfold fsCleanup at h ⊢
    rcases hs : fsCleanupOne false fs p fate with ⟨fs', b⟩
    rw [hs] at h h1
    cases b with
    | false => cases h
    | true =>
      intro x hx
      rcases List.mem_cons.1 hx with rfl | hx
      · exact gone_only (cleanup_only false r fs') (h1 rfl)
      · exact ih fs' h x hx

/-- **C123**: after a completed cleanup there are no files used by the provider, by secondary providers, or by Ansible, and there is no snapshot. -/
theorem C123_complete (e : CleanEnv) (p : String) (secondary : List String) (tools : List (String × RmFate × Bool)) (files : List (FsPath × RmFate))
    (hf : files.map (·.1) = downCleanupList e p secondary) (fs : LabFs) (h : (downFiles false tools files fs).2 = true) :
    (∀ q ∈ e.cleanup p, Gone (downFiles false tools files fs).1 q) ∧
    (∀ s ∈ secondary, (∀ q ∈ e.cleanup s, Gone (downFiles false tools files fs).1 q) ∧ ∀ q, e.filename p s = some q → Gone (downFiles false tools files fs).1 q) ∧
    (∀ q ∈ e.ansible, Gone (downFiles false tools files fs).1 q) ∧ Gone (downFiles false tools files fs).1 ["netlab.snapshot.yml"] := by
  have key : ∀ q ∈ downCleanupList e p secondary, Gone (downFiles false tools files fs).1 q := by
    intro q hq
    rw [← hf, List.mem_map] at hq
    obtain ⟨x, hx, rfl⟩ := hq
    unfold downFiles at h ⊢
    split at h
    · rename_i hc
      rw [if_pos hc]
      rcases hs : toolCleanup false tools fs with ⟨fs', b⟩
      rw [hs] at h
      cases b with
      | false => cases h
      | true => exact cleanup_gone files fs' h x hx
    · cases h
  unfold downCleanupList at key
  refine ⟨fun q hq => key q (by simp [hq]), fun s hs => ⟨fun q hq => key q ?_, fun q hq => key q ?_⟩, fun q hq => key q (by simp [hq]), key _ (by simp [snapshotPath])⟩
  · refine List.mem_append_left _ (List.mem_append_left _ (List.mem_append_right _ (List.mem_flatMap.2 ⟨s, hs, List.mem_append_left _ hq⟩)))
  · refine List.mem_append_left _ (List.mem_append_left _ (List.mem_append_right _ (List.mem_flatMap.2 ⟨s, hs, List.mem_append_right _ (by simp [hq])⟩)))

theorem cleanupOne_keeps (fs : LabFs) (p q : FsPath) (fate : RmFate) (dry : Bool) (h : ¬ p <+: q) : (fsCleanupOne dry fs p fate).1 q = fs q := by
  rcases cleanupOne_only dry fs p fate [p] (by simp) q with h' | ⟨-, x, hx, hp⟩
  · exact h'
  · rw [List.mem_singleton] at hx
    subst hx
    exact absurd hp h

/-- Files before the snapshot are gone when the snapshot is gone. -/
theorem cleanup_last (l : List (FsPath × RmFate)) (s : FsPath) (fate : RmFate) (hl : ∀ x ∈ l, ¬ x.1 <+: s) (fs : LabFs) (hs : fs s = some .file) :
    (fsCleanup false (l ++ [(s, fate)]) fs).1 s = some .file ∨
      ((fsCleanup false (l ++ [(s, fate)]) fs).1 s = none ∧ (fsCleanup false (l ++ [(s, fate)]) fs).2 = true) := by
  induction l generalizing fs with
  | nil =>
    simp only [List.nil_append, fsCleanup]
    cases fate with
    | ok => right; simp [fsCleanupOne, fsIsDir, fsExists, hs, fsRemove]
    | failed r => left; simp [fsCleanupOne, fsIsDir, fsExists, hs]
  | cons y r ih =>
    obtain ⟨p, f⟩ := y
    have hk := cleanupOne_keeps fs p s f false (hl _ List.mem_cons_self)
    rw [List.cons_append]
    simp only [fsCleanup]
    rcases hh : fsCleanupOne false fs p f with ⟨fs', b⟩
    rw [hh] at hk
    dsimp only at hk
    cases b with
    | false => exact .inl (hk.trans hs)
    | true => exact ih (fun x hx => hl x (List.mem_cons_of_mem _ hx)) fs' (hk.trans hs)

/-- **C123**: the snapshot is the last thing to go. If the cleanup fails or is interrupted at any point, the snapshot is still there (and `netlab down --cleanup` can be repeated),
unless everything else on the cleanup list is already gone. -/
theorem C123_snapshot_last (e : CleanEnv) (p : String) (secondary : List String) (tools : List (String × RmFate × Bool)) (files : List (FsPath × RmFate))
    (hf : files.map (·.1) = downCleanupList e p secondary) (htool : ∀ t ∈ tools, t.1 ≠ "netlab.snapshot.yml")
    (hsnap : ∀ q, (q ∈ e.cleanup p ∨ (∃ s ∈ secondary, q ∈ e.cleanup s ∨ e.filename p s = some q) ∨ q ∈ e.ansible) → ¬ q <+: ["netlab.snapshot.yml"])
    (fs : LabFs) (hs : fs ["netlab.snapshot.yml"] = some .file) :
    (downFiles false tools files fs).1 ["netlab.snapshot.yml"] = some .file ∨
      ((downFiles false tools files fs).1 ["netlab.snapshot.yml"] = none ∧ (downFiles false tools files fs).2 = true) := by
  have hsp : snapshotPath = ["netlab.snapshot.yml"] := rfl
  unfold downFiles
  rw [if_pos (by rw [hsp]; exact hs)]
  have h1 := tool_only false tools fs ["netlab.snapshot.yml"]
  rcases hh : toolCleanup false tools fs with ⟨fs', b⟩
  rw [hh] at h1
  have hs' : fs' ["netlab.snapshot.yml"] = some .file := by
    rcases h1 with h1 | ⟨-, q, hq, hp⟩
    · exact h1.trans hs
    · exfalso
      obtain ⟨t, ht, rfl⟩ := List.mem_map.1 hq
      have := htool t ht
      simp only [List.cons_prefix_cons, List.prefix_nil, and_true] at hp
      exact this hp
  cases b with
  | false => exact .inl hs'
  | true =>
    dsimp only
    unfold downCleanupList at hf
    obtain ⟨l1, l2, rfl, hl1, hl2⟩ := List.map_eq_append_iff.1 hf
    obtain ⟨x, r, rfl, hx, hr⟩ := List.map_eq_cons_iff.1 hl2
    rw [List.map_eq_nil_iff] at hr
    subst hr
    obtain ⟨xp, xf⟩ := x
    dsimp only at hx
    subst hx
    rw [hsp]
    refine cleanup_last l1 _ xf ?_ fs' hs'
    intro y hy
    have hm : y.1 ∈ l1.map (·.1) := List.mem_map_of_mem hy
    rw [hl1] at hm
    apply hsnap
    simp only [List.mem_append, List.mem_flatMap, Option.mem_toList] at hm
    rcases hm with (h | ⟨s, hs, h⟩) | h
    · exact .inl h
    · exact .inr (.inl ⟨s, hs, h⟩)
    · exact .inr (.inr h)

/-- A successful removal of everything succeeds when there are no links to directories. -/
theorem cleanup_succeeds (l : List (FsPath × RmFate)) (hok : ∀ x ∈ l, x.2 = .ok) (fs : LabFs) (hl : ∀ x ∈ l, fs x.1 ≠ some .linkToDir) : (fsCleanup false l fs).2 = true := by
  induction l generalizing fs with
  | nil => rfl
  | cons y r ih =>
    obtain ⟨p, f⟩ := y
    have hf : f = .ok := hok _ List.mem_cons_self
    subst hf
    have hp : fs p ≠ some .linkToDir := hl _ List.mem_cons_self
    have h1 : (fsCleanupOne false fs p .ok).2 = true := by
      unfold fsCleanupOne
      split
      · simp
      · split <;> rfl
    have h2 := cleanupOne_only false fs p .ok [p] (by simp)
    unfold fsCleanup
    rcases hh : fsCleanupOne false fs p .ok with ⟨fs', b⟩
    rw [hh] at h1 h2
    dsimp only at h1 h2
    subst h1
    refine ih (fun x hx => hok x (List.mem_cons_of_mem _ hx)) fs' (fun x hx => ?_)
    rcases h2 x.1 with h | h
    · rw [h]
      exact hl x (List.mem_cons_of_mem _ hx)
    · rw [h.1]
      exact fun h => nomatch h

theorem tool_succeeds (l : List (String × RmFate × Bool)) (hok : ∀ x ∈ l, x.2 = (.ok, false)) (fs : LabFs) : (toolCleanup false l fs).2 = true ∧ ∀ x ∈ l, (toolCleanup false l fs).1 [x.1] = none := by
  induction l generalizing fs with
  | nil => exact ⟨rfl, fun x hx => (nomatch hx)⟩
  | cons y r ih =>
    obtain ⟨t, f⟩ := y
    have hf : f = (.ok, false) := hok _ List.mem_cons_self
    subst hf
    have h1 : toolCleanupOne false fs t .ok false = (fsRemove fs [t], true) := rfl
    simp only [toolCleanup, h1]
    obtain ⟨i1, i2⟩ := ih (fun x hx => hok x (List.mem_cons_of_mem _ hx)) (fsRemove fs [t])
    refine ⟨i1, fun x hx => ?_⟩
    rcases List.mem_cons.1 hx with rfl | hx
    · rcases tool_only false r (fsRemove fs [t]) [t] with h | h
      · rw [h]
        simp [fsRemove]
      · exact h.1
    · exact i2 x hx

/-- **C123**: a failed or interrupted cleanup can be repeated: if nothing goes wrong the second time, and if there are no links to directories, everything is removed. -/
theorem C123_repeat (e : CleanEnv) (p : String) (secondary : List String) (tools : List (String × RmFate × Bool)) (files : List (FsPath × RmFate))
    (hf : files.map (·.1) = downCleanupList e p secondary) (htool : ∀ t ∈ tools, t.1 ≠ "netlab.snapshot.yml")
    (hsnap : ∀ q, (q ∈ e.cleanup p ∨ (∃ s ∈ secondary, q ∈ e.cleanup s ∨ e.filename p s = some q) ∨ q ∈ e.ansible) → ¬ q <+: ["netlab.snapshot.yml"])
    (fs : LabFs) (hs : fs ["netlab.snapshot.yml"] = some .file) (hlink : ∀ q, fs q ≠ some .linkToDir) (hfail : (downFiles false tools files fs).2 = false)
    (again : LabFs × Bool) (hagain : again = downFiles false (tools.map (fun t => (t.1, .ok, false))) (files.map (fun x => (x.1, .ok))) (downFiles false tools files fs).1) :
    again.2 = true ∧ (∀ t ∈ tools, Gone again.1 [t.1]) ∧ ∀ x ∈ files, Gone again.1 x.1 := by
  have hs' : (downFiles false tools files fs).1 ["netlab.snapshot.yml"] = some .file := by
    rcases C123_snapshot_last e p secondary tools files hf htool hsnap fs hs with h | h
    · exact h
    · rw [hfail] at h
      cases h.2
  have honly := C123_only false tools files fs
  have hlink' : ∀ q, (downFiles false tools files fs).1 q ≠ some .linkToDir := by
    intro q
    rcases honly q with h | h
    · rw [h]
      exact hlink q
    · rw [h.1]
      exact fun h => nomatch h
  generalize (downFiles false tools files fs).1 = fs1 at hs' hagain hlink'
  obtain ⟨t1, t2⟩ := tool_succeeds (tools.map (fun t => (t.1, RmFate.ok, false))) (by
    intro x hx
    obtain ⟨t, -, rfl⟩ := List.mem_map.1 hx
    rfl) fs1
  have t3 := tool_only false (tools.map (fun t => (t.1, RmFate.ok, false))) fs1
  rcases hh : toolCleanup false (tools.map (fun t => (t.1, RmFate.ok, false))) fs1 with ⟨fs2, b⟩
  rw [hh] at t1 t2 t3
  dsimp only at t1 t2 t3
  subst t1
  have hag : again = fsCleanup false (files.map (fun x => (x.1, .ok))) fs2 := by
    rw [hagain]
    unfold downFiles
    rw [if_pos (show fs1 snapshotPath = some .file from hs'), hh]
  have hsuc := cleanup_succeeds (files.map (fun x => (x.1, RmFate.ok))) (by
    intro x hx
    obtain ⟨t, -, rfl⟩ := List.mem_map.1 hx
    rfl) fs2 (by
    intro x _
    rcases t3 x.1 with h | h
    · rw [h]
      exact hlink' _
    · rw [h.1]
      exact fun h => nomatch h)
  rw [hag]
  refine ⟨hsuc, fun t ht => ?_, fun x hx => ?_⟩
  · exact gone_only (cleanup_only false _ fs2) (.inl (t2 (t.1, RmFate.ok, false) (List.mem_map.2 ⟨t, ht, rfl⟩)))
  · exact cleanup_gone _ fs2 hsuc (x.1, RmFate.ok) (List.mem_map.2 ⟨x, hx, rfl⟩)

/-- **C123**: warnings about modified source files are displayed exactly for existing input files that were modified after the snapshot was created. -/
theorem C123_modified (mtime : String → Option Nat) (snap : Nat) (inputs : List String) (f : String) :
    f ∈ modifiedSources mtime snap inputs ↔ f ∈ inputs ∧ ∃ t, mtime f = some t ∧ snap < t := by
  unfold modifiedSources
  rw [List.mem_filter]
  refine and_congr_right fun _ => ?_
  cases mtime f with
  | none => simp
  | some t => simp

/-! ### Examples and defects -/

namespace CleanupExample

def env : CleanEnv where
  cleanup p := if p = "libvirt" then [["Vagrantfile"], [".vagrant"]] else if p = "clab" then [["clab.yml"], ["clab_files"]] else []
  filename p s := if p = "libvirt" ∧ s = "clab" then some ["clab-augment.yml"] else none
  ansible := [["ansible.cfg"], ["hosts.yml"], ["group_vars"], ["host_vars"], ["config"]]

def lab : LabFs := fun p =>
  if p = ["netlab.snapshot.yml"] ∨ p = ["topology.yml"] ∨ p = ["hosts.yml"] ∨ p = ["clab_files", "r1", "daemons"] ∨ p = ["host_vars", "r1", "topology.yml"] ∨ p = ["edgeshark", "compose.yml"] then some .file
  else if p = ["clab_files"] ∨ p = ["clab_files", "r1"] ∨ p = ["host_vars"] ∨ p = ["host_vars", "r1"] ∨ p = ["edgeshark"] then some .dir else none

def files (f : RmFate) : List (FsPath × RmFate) := (downCleanupList env "libvirt" ["clab"]).map (fun p => (p, if p = ["host_vars"] then f else .ok))

/-- Removal of a directory is interrupted. -/
def broken : LabFs × Bool := downFiles false [("edgeshark", .ok, false)] (files (.failed [["host_vars", "r1", "topology.yml"]])) lab

def linked : LabFs := fun p => if p = ["config"] then some .linkToDir else lab p

end CleanupExample

open CleanupExample in
/-- Hypotheses of C123 are met. -/
example : (files .ok).map (·.1) = downCleanupList env "libvirt" ["clab"] ∧ lab ["netlab.snapshot.yml"] = some .file := by
  refine ⟨by decide, by decide⟩

open CleanupExample in
example (q : FsPath) (h : q ∈ env.cleanup "libvirt" ∨ (∃ s ∈ ["clab"], q ∈ env.cleanup s ∨ env.filename "libvirt" s = some q) ∨ q ∈ env.ansible) : ¬ q <+: ["netlab.snapshot.yml"] := by
  have hc : q ∈ downCleanupList env "libvirt" ["clab"] ∧ q ≠ snapshotPath := by
    simp only [env, downCleanupList, snapshotPath] at *
    simp at h ⊢
    rcases h with (rfl | rfl) | ((rfl | rfl) | rfl) | rfl | rfl | rfl | rfl | rfl <;> simp
  have key : ∀ q ∈ downCleanupList env "libvirt" ["clab"], q = snapshotPath ∨ ¬ q.isPrefixOf ["netlab.snapshot.yml"] := by decide
  rcases key q hc.1 with h | h
  · exact absurd h hc.2
  · exact fun h' => h (List.isPrefixOf_iff_prefix.2 h')

open CleanupExample in
example : broken.2 = false ∧ broken.1 ["netlab.snapshot.yml"] = some .file ∧ broken.1 ["edgeshark", "compose.yml"] = none ∧ broken.1 ["hosts.yml"] = none ∧
    broken.1 ["host_vars", "r1"] = some .dir ∧ broken.1 ["host_vars", "r1", "topology.yml"] = none ∧ broken.1 ["topology.yml"] = some .file := by decide +kernel

open CleanupExample in
example : (downFiles false [("edgeshark", .ok, false)] (files .ok) broken.1).2 = true ∧ (downFiles false [("edgeshark", .ok, false)] (files .ok) broken.1).1 ["netlab.snapshot.yml"] = none ∧
    (downFiles false [("edgeshark", .ok, false)] (files .ok) broken.1).1 ["topology.yml"] = some .file := by decide +kernel

open CleanupExample in
/-- C123 defect: a symbolic link to a directory (for example, `config`) aborts the cleanup every time, and the snapshot is never removed. -/
theorem C123_link_to_directory : (downFiles false [] (files .ok) linked).2 = false ∧ (downFiles false [] (files .ok) linked).1 ["netlab.snapshot.yml"] = some .file ∧
    (downFiles false [] (files .ok) (downFiles false [] (files .ok) linked).1).2 = false := by decide +kernel

/-- C123 defect: symbolic links that point nowhere are not removed. -/
theorem C123_dangling_link (fs : LabFs) (p : FsPath) (h : fs p = some .dangling) : fsCleanup false [(p, .ok)] fs = (fs, true) := by
  simp [fsCleanup, fsCleanupOne, fsIsDir, fsExists, h]

open CleanupExample in
/-- C123 defect: failed removal of a tool directory is ignored: the snapshot is removed, and the cleanup cannot be repeated. -/
theorem C123_tool_failure : (downFiles false [("edgeshark", .failed [], false)] (files .ok) lab).2 = true ∧
    (downFiles false [("edgeshark", .failed [], false)] (files .ok) lab).1 ["edgeshark", "compose.yml"] = some .file ∧
    (downFiles false [("edgeshark", .ok, false)] (files .ok) (downFiles false [("edgeshark", .failed [], false)] (files .ok) lab).1).2 = false := by decide +kernel

end Netlab
