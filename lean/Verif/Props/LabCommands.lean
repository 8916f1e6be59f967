import Verif.Spec.LabCommands
import Verif.Props.LibvirtNet
/-!
# C139, C140, C141: `netlab restart`, `netlab test` and `netlab collect`
-/

namespace Netlab
open Spec

theorem downParse_flag (t : String) (r : List String)
    (h : ["-v", "--verbose", "--cleanup", "--dry-run", "--force"].contains t = true) : downParse (t :: r) = downParse r := by
  rw [downParse.eq_def]
  dsimp only
  rw [if_pos h]

theorem downParse_other (t : String) (r : List String)
    (h1 : ["-v", "--verbose", "--cleanup", "--dry-run", "--force"].contains t = false)
    (h2 : ["-i", "--instance"].contains t = false) : downParse (t :: r) = false := by
  rw [downParse.eq_def]
  dsimp only
  rw [if_neg (by rw [h1]; decide), if_neg (by rw [h2]; decide)]

theorem downParse_file (f : String) (r : List String) (h : f.toList.head? ≠ some '-') : downParse (f :: r) = false := by
  have h1 : ["-v", "--verbose", "--cleanup", "--dry-run", "--force"].contains f = false := by
    rw [Bool.eq_false_iff]
    intro hc
    simp only [List.contains_cons, List.contains_nil, Bool.or_false, Bool.or_eq_true, beq_iff_eq] at hc
    rcases hc with rfl | rfl | rfl | rfl | rfl <;> exact h (by decide)
  have h2 : ["-i", "--instance"].contains f = false := by
    rw [Bool.eq_false_iff]
    intro hc
    simp only [List.contains_cons, List.contains_nil, Bool.or_false, Bool.or_eq_true, beq_iff_eq] at hc
    rcases hc with rfl | rfl <;> exact h (by decide)
  exact downParse_other f r h1 h2

theorem upOnly_file (f : String) (h : f.toList.head? ≠ some '-') :
    (!["--fast-config", "--no-config", "--snapshot"].contains f) = true := by
  rw [Bool.not_eq_true', Bool.eq_false_iff]
  intro hc
  simp only [List.contains_cons, List.contains_nil, Bool.or_false, Bool.or_eq_true, beq_iff_eq] at hc
  rcases hc with rfl | rfl | rfl <;> exact h (by decide)

theorem downParse_restart (args : List RestartArg) (hf : FileNames args) :
    downParse ((args.flatMap RestartArg.text).filter
      (fun a => !["--fast-config", "--no-config", "--snapshot"].contains a)) = true ↔ ∀ a ∈ args, RestartSafe a := by
  induction args with
  | nil => simp [downParse]
  | cons a r ih =>
    have hr : FileNames r := fun f h => hf f (h.imp (List.mem_cons_of_mem _) (List.mem_cons_of_mem _))
    have ih := ih hr
    rw [List.flatMap_cons, List.filter_append]
    have hall : (∀ x ∈ a :: r, RestartSafe x) ↔ RestartSafe a ∧ ∀ x ∈ r, RestartSafe x := by simp
    rw [hall, ← ih]
    generalize (r.flatMap RestartArg.text).filter _ = rest
    have bad : ∀ (f : String), f.toList.head? ≠ some '-' →
        downParse (([f] : List String).filter (fun a => !["--fast-config", "--no-config", "--snapshot"].contains a) ++ rest)
          = false := by
      intro f h
      rw [List.filter_cons, if_pos (upOnly_file f h)]
      exact downParse_file f _ h
    cases a with
    | verbose =>
      show downParse ("-v" :: rest) = true ↔ _
      rw [downParse_flag _ _ (by decide)]
      simp [RestartSafe]
    | noConfig =>
      show downParse rest = true ↔ _
      simp [RestartSafe]
    | fastConfig =>
      show downParse rest = true ↔ _
      simp [RestartSafe]
    | quiet =>
      show downParse ("-q" :: rest) = true ↔ _
      rw [downParse_other _ _ (by decide) (by decide)]
      simp [RestartSafe]
    | logging =>
      show downParse ("--log" :: rest) = true ↔ _
      rw [downParse_other _ _ (by decide) (by decide)]
      simp [RestartSafe]
    | warning =>
      show downParse ("--warning" :: rest) = true ↔ _
      rw [downParse_other _ _ (by decide) (by decide)]
      simp [RestartSafe]
    | raiseOnError =>
      show downParse ("--raise_on_error" :: rest) = true ↔ _
      rw [downParse_other _ _ (by decide) (by decide)]
      simp [RestartSafe]
    | topology f =>
      have := bad f (hf f (.inr (by simp)))
      rw [show (RestartArg.topology f).text = [f] from rfl, this]
      simp [RestartSafe]
    | snapshot f =>
      cases f with
      | none =>
        show downParse rest = true ↔ _
        simp [RestartSafe]
      | some f =>
        have := bad f (hf f (.inl (by simp)))
        rw [show (RestartArg.snapshot (some f)).text = ["--snapshot"] ++ [f] from rfl, List.filter_append,
          show (["--snapshot"] : List String).filter (fun a => !["--fast-config", "--no-config", "--snapshot"].contains a) = []
            from by decide, List.nil_append, this]
        simp [RestartSafe]

/-- C139: `netlab restart` with the arguments understood by `netlab down` stops the lab first and, if that worked, starts it with
all arguments.  Nothing is done when there is any other argument. -/
theorem C139_restart (downOk : Bool) (args : List RestartArg) (hf : FileNames args) :
    ((∀ a ∈ args, RestartSafe a) →
      ∃ d, (restartRun downOk args = .down d :: if downOk then [.up (args.flatMap RestartArg.text)] else []) ∧
        ∀ t ∈ d, t = "-v") ∧
    ((∃ a ∈ args, ¬ RestartSafe a) → restartRun downOk args = []) := by
  have h := downParse_restart args hf
  constructor
  · intro hs
    refine ⟨(args.flatMap RestartArg.text).filter
      (fun a => !["--fast-config", "--no-config", "--snapshot"].contains a), ?_, ?_⟩
    · unfold restartRun
      dsimp only
      rw [if_neg (by rw [h.2 hs]; decide)]
      cases downOk <;> rfl
    · intro t ht
      rw [List.mem_filter, List.mem_flatMap] at ht
      obtain ⟨⟨a, ha, hta⟩, hn⟩ := ht
      rcases hs a ha with rfl | rfl | rfl | rfl <;> simp only [RestartArg.text, List.mem_singleton] at hta <;> subst hta
      · rfl
      all_goals exact absurd hn (by decide)
  · rintro ⟨a, ha, hn⟩
    unfold restartRun
    dsimp only
    rw [if_pos]
    rw [Bool.not_eq_true', Bool.eq_false_iff]
    intro ht
    exact hn (h.1 ht a ha)

/-- C139 (defect): a topology file accepted by `netlab restart` is an unknown argument of `netlab down`: the lab is
neither stopped nor started.  The same applies to a snapshot file and to `--quiet`. -/
theorem C139_topology_rejected : restartRun true [.topology "lab.yml"] = [] ∧
    restartRun true [.snapshot (some "lab.snapshot.yml")] = [] ∧ restartRun true [.quiet] = [] := by
  decide +kernel

example : FileNames [.verbose, .noConfig, .topology "lab.yml"] := by
  intro f h
  simp at h
  subst h
  decide

example : restartRun true [.verbose, .noConfig, .snapshot none] =
    [.down ["-v"], .up ["-v", "--no-config", "--snapshot"]] := by
  decide +kernel

theorem prefix_inDir (p q : DirPath) : p.isPrefixOf q = true ↔ InDir p q := by
  rw [List.isPrefixOf_iff_prefix]
  constructor
  · rintro ⟨r, rfl⟩; exact ⟨r, rfl⟩
  · rintro ⟨r, rfl⟩; exact ⟨r, rfl⟩

theorem treeExists_iff (fs : DirTree) (p : DirPath) : treeExists fs p = true ↔ ∃ x ∈ fs, InDir p x.1 := by
  simp only [treeExists, List.any_eq_true, prefix_inDir]

theorem mem_treeRemove (fs : DirTree) (p : DirPath) (x : DirPath × String) : x ∈ treeRemove fs p ↔ x ∈ fs ∧ ¬ InDir p x.1 := by
  unfold treeRemove
  rw [List.mem_filter, ← prefix_inDir, Bool.not_eq_true', Bool.not_eq_true]

theorem treeRemove_same (fs : DirTree) (p : DirPath) : SameOutside p fs (treeRemove fs p) := by
  intro x hx
  rw [mem_treeRemove]
  exact ⟨fun h => ⟨h, hx⟩, And.left⟩

theorem treeRemove_noDir (fs : DirTree) (p : DirPath) : NoDir p (treeRemove fs p) := fun x hx => ((mem_treeRemove fs p x).1 hx).2

theorem sameOutside_trans {p : DirPath} {a b c : DirTree} (h : SameOutside p a b) (k : SameOutside p b c) :
    SameOutside p a c := fun x hx => (h x hx).trans (k x hx)

/-- C140: a directory that already exists is never changed, and no command is executed. -/
theorem C140_existing (e : LabTestEnv) (fs : DirTree) (x : DirPath × String) (hx : x ∈ fs)
    (hd : InDir (e.cwd ++ e.workdir) x.1) :
    (labTest e fs).fs = fs ∧ (labTest e fs).commands = [] ∧ (labTest e fs).fatal = true := by
  unfold labTest
  rw [if_pos ((treeExists_iff _ _).2 ⟨x, hx, hd⟩)]
  exact ⟨rfl, rfl, rfl⟩

/-- C140: success is reported exactly when `netlab up` and `netlab down` were executed and worked; a lab that could not be
started or stopped is removed with a forced cleanup. -/
theorem C140_success (e : LabTestEnv) (fs : DirTree) (hf : (labTest e fs).fatal = false) :
    ((labTest e fs).success = true ↔
      (e.up (testFiles e fs)).1 = true ∧ (e.down (e.up (testFiles e fs)).2).1 = true) ∧
    (labTest e fs).commands.head? = some "netlab up" ∧
    ("netlab down" ∈ (labTest e fs).commands ↔ (e.up (testFiles e fs)).1 = true) ∧
    ("netlab down --cleanup --force" ∈ (labTest e fs).commands ↔ (labTest e fs).success = false) := by
  unfold labTest at hf ⊢
  split at hf
  · cases hf
  · rename_i h1
    rw [if_neg h1]
    split at hf
    · cases hf
    · rename_i h2
      rw [if_neg h2]
      split at hf
      · cases hf
      · rename_i h3
        rw [if_neg h3]
        dsimp only
        cases hu : (e.up (testFiles e fs)).1 with
        | false => simp
        | true =>
          cases hd : (e.down (e.up (testFiles e fs)).2).1 with
          | false => simp
          | true => simp

theorem testCleanup_spec (e : LabTestEnv) (n : String) (hn : e.workdir = [n]) (fs : DirTree)
    (hrm : e.rmtree (e.cwd ++ [n]) = true ∨ e.sudoRm (e.cwd ++ [n]) = true) :
    NoDir (e.cwd ++ [n]) (testCleanup e fs) ∧ SameOutside (e.cwd ++ [n]) fs (testCleanup e fs) := by
  unfold testCleanup
  have ht : e.cwd ++ e.workdir.dropLast ++ e.workdir = e.cwd ++ [n] := by rw [hn]; simp
  rw [ht]
  dsimp only
  by_cases h1 : (treeExists fs (e.cwd ++ [n]) && e.rmtree (e.cwd ++ [n])) = true
  · rw [if_pos h1]
    exact ⟨treeRemove_noDir _ _, treeRemove_same _ _⟩
  · rw [if_neg h1]
    by_cases h2 : e.sudoRm (e.cwd ++ [n]) = true
    · rw [if_pos h2]
      exact ⟨treeRemove_noDir _ _, treeRemove_same _ _⟩
    · rw [if_neg h2]
      refine ⟨?_, fun x _ => Iff.rfl⟩
      intro x hx hd
      apply h1
      rw [Bool.and_eq_true]
      exact ⟨(treeExists_iff _ _).2 ⟨x, hx, hd⟩, hrm.resolve_right h2⟩

/-- C140: when the working directory is a name (in the current directory) and it can be removed, a test that was not aborted leaves
no trace of it, and nothing outside of the working directory is changed as long as the tested commands do not change anything. -/
theorem C140_removed (e : LabTestEnv) (fs : DirTree) (n : String) (hn : e.workdir = [n])
    (hrm : e.rmtree (e.cwd ++ [n]) = true ∨ e.sudoRm (e.cwd ++ [n]) = true) (hf : (labTest e fs).fatal = false) :
    NoDir (e.cwd ++ [n]) (labTest e fs).fs ∧
    ((∀ f, SameOutside (e.cwd ++ [n]) f (e.up f).2 ∧ SameOutside (e.cwd ++ [n]) f (e.down f).2 ∧
        SameOutside (e.cwd ++ [n]) f (e.force f).2) →
      ∀ x, x ∈ (labTest e fs).fs ↔ x ∈ fs) := by
  have hc := fun f => testCleanup_spec e n hn f hrm
  have hnew : SameOutside (e.cwd ++ [n]) fs (testFiles e fs) := by
    intro x hx
    unfold testFiles
    rw [hn, List.mem_append]
    refine ⟨.inl, fun h => h.resolve_right fun h => hx ?_⟩
    simp only [List.mem_cons, List.not_mem_nil, or_false] at h
    rcases h with rfl | rfl
    · exact ⟨[], by simp⟩
    · exact ⟨_, rfl⟩
  have hold : (labTest e fs).fatal = false → NoDir (e.cwd ++ [n]) fs := by
    intro h x hx hd
    have := (C140_existing e fs x hx (by rw [hn]; exact hd)).2.2
    rw [h] at this
    cases this
  have hold := hold hf
  have fin : ∀ g : DirTree, NoDir (e.cwd ++ [n]) g → SameOutside (e.cwd ++ [n]) fs g → ∀ x, x ∈ g ↔ x ∈ fs := by
    intro g h1 h2 x
    by_cases hx : InDir (e.cwd ++ [n]) x.1
    · exact ⟨fun h => absurd hx (h1 x h), fun h => absurd hx (hold x h)⟩
    · exact (h2 x hx).symm
  unfold labTest at hf ⊢
  split at hf
  · cases hf
  · rename_i h1
    rw [if_neg h1]
    split at hf
    · cases hf
    · rename_i h2
      rw [if_neg h2]
      split at hf
      · cases hf
      · rename_i h3
        rw [if_neg h3]
        dsimp only
        split
        · refine ⟨(hc _).1, fun hs => fin _ (hc _).1 ?_⟩
          exact sameOutside_trans (sameOutside_trans (sameOutside_trans hnew (hs _).1) (hs _).2.2) (hc _).2
        · split
          · refine ⟨(hc _).1, fun hs => fin _ (hc _).1 ?_⟩
            exact sameOutside_trans (sameOutside_trans (sameOutside_trans (sameOutside_trans hnew (hs _).1) (hs _).2.1) (hs _).2.2) (hc _).2
          · refine ⟨(hc _).1, fun hs => fin _ (hc _).1 ?_⟩
            exact sameOutside_trans (sameOutside_trans (sameOutside_trans hnew (hs _).1) (hs _).2.1) (hc _).2

/-- A test environment in which everything works -/
def goodTest (workdir : DirPath) : LabTestEnv :=
  { cwd := ["home"], workdir := workdir, probes := true, copyOk := true, up := fun f => (true, f), down := fun f => (true, f),
    force := fun f => (true, f), rmtree := fun _ => true, sudoRm := fun _ => true }

example : (labTest (goodTest ["test"]) [(["home", "notes"], "text")]).fs = [(["home", "notes"], "text")] ∧
    (labTest (goodTest ["test"]) [(["home", "notes"], "text")]).success = true := by
  decide +kernel

/-- C140 (defect): with a working directory `a/b` the command changes the directory to `a` and then removes `a/b` in that directory:
the working directory is still there, and an unrelated directory `a/a/b` is gone. -/
theorem C140_nested :
    (labTest (goodTest ["a", "b"]) [(["home", "a", "a", "b", "thesis"], "text")]).fs =
      [(["home", "a", "b"], "directory"), (["home", "a", "b", "topology.yml"], "topology")] ∧
    (labTest (goodTest ["a", "b"]) [(["home", "a", "a", "b", "thesis"], "text")]).success = true := by
  decide +kernel

theorem treeCleanup_spec {rm : DirPath → Bool} {fs fs' : DirTree} {p : DirPath} (h : treeCleanup rm fs p = some fs') :
    NoDir p fs' ∧ SameOutside p fs fs' := by
  unfold treeCleanup at h
  split at h
  · rename_i he
    cases h
    refine ⟨fun x hx hd => ?_, fun _ _ => Iff.rfl⟩
    rw [(treeExists_iff _ _).2 ⟨x, hx, hd⟩] at he
    exact absurd he (by decide)
  · split at h
    · cases h
      exact ⟨treeRemove_noDir _ _, treeRemove_same _ _⟩
    · cases h

/-- C141: when the configurations are collected, the playbook gets an empty output directory in the lab directory, and nothing else was
changed before it is started. -/
theorem C141_output (e : CollectEnv) (fs : DirTree) (hf : (collectRun e fs).fatal = false) :
    ∃ fs1, (e.playbook fs1 (e.out e.labDir)).1 = true ∧ SameOutside (e.out e.labDir) fs fs1 ∧
      (∀ x ∈ fs1, InDir (e.out e.labDir) x.1 → x = (e.out e.labDir, "directory")) ∧
      (e.tar = none → (collectRun e fs).fs = (e.playbook fs1 (e.out e.labDir)).2 ∧ (collectRun e fs).archive = none) := by
  unfold collectRun at hf ⊢
  cases hc : treeCleanup e.rm fs (e.out e.labDir) with
  | none => rw [hc] at hf; cases hf
  | some fs1 =>
    rw [hc] at hf
    obtain ⟨h1, h2⟩ := treeCleanup_spec hc
    refine ⟨fs1 ++ [(e.out e.labDir, "directory")], ?_, ?_, ?_, ?_⟩
    · dsimp only at hf
      split at hf
      · cases hf
      · rename_i h; simpa using h
    · intro x hx
      rw [List.mem_append]
      refine ⟨fun h => .inl ((h2 x hx).1 h), fun h => (h2 x hx).2 (h.resolve_right fun h => hx ?_)⟩
      rw [List.mem_singleton] at h
      subst h
      exact ⟨[], by simp⟩
    · intro x hx hd
      rcases List.mem_append.1 hx with h | h
      · exact absurd hd (h1 x h)
      · exact List.mem_singleton.1 h
    · intro ht
      dsimp only at hf ⊢
      split at hf
      · cases hf
      · rename_i h
        rw [if_neg h, ht]
        exact ⟨rfl, rfl⟩

/-- C141: the tarball contains exactly the collected configurations when the command is executed in the lab directory or the output
directory is an absolute path; `--cleanup` removes the output directory and nothing else. -/
theorem C141_archive (e : CollectEnv) (fs : DirTree) (hf : (collectRun e fs).fatal = false) (t : String) (ht : e.tar = some t)
    (hdir : e.labDir = e.runDir ∨ e.absolute = true) :
    ∃ fs1 a, (e.playbook fs1 (e.out e.labDir)).1 = true ∧ (collectRun e fs).archive = some (tarballFile t, a) ∧
      (∀ x, x ∈ a ↔ x ∈ (e.playbook fs1 (e.out e.labDir)).2 ∧ InDir (e.out e.labDir) x.1) ∧
      (e.cleanup = false → (collectRun e fs).fs = (e.playbook fs1 (e.out e.labDir)).2) ∧
      (e.cleanup = true → NoDir (e.out e.labDir) (collectRun e fs).fs ∧
        SameOutside (e.out e.labDir) (e.playbook fs1 (e.out e.labDir)).2 (collectRun e fs).fs) := by
  have ho : e.out e.runDir = e.out e.labDir := by
    unfold CollectEnv.out
    rcases hdir with h | h
    · rw [h]
    · rw [if_pos h, if_pos h]
  unfold collectRun at hf ⊢
  cases hc : treeCleanup e.rm fs (e.out e.labDir) with
  | none => rw [hc] at hf; cases hf
  | some fs1 =>
    rw [hc] at hf
    dsimp only at hf ⊢
    generalize hp : e.playbook (fs1 ++ [(e.out e.labDir, "directory")]) (e.out e.labDir) = p at hf ⊢
    split at hf
    · cases hf
    · rename_i h
      rw [if_neg h]
      rw [ht] at hf ⊢
      dsimp only at hf ⊢
      unfold collectTar at hf ⊢
      rw [ho] at hf ⊢
      dsimp only at hf ⊢
      split at hf
      · cases hf
      · rename_i h2
        rw [if_neg h2]
        have hmem : ∀ x, x ∈ p.2.filter (fun x => (e.out e.labDir).isPrefixOf x.1) ↔ x ∈ p.2 ∧ InDir (e.out e.labDir) x.1 := by
          intro x
          rw [List.mem_filter, prefix_inDir]
        refine ⟨fs1 ++ [(e.out e.labDir, "directory")], p.2.filter (fun x => (e.out e.labDir).isPrefixOf x.1), ?_, ?_, ?_, ?_, ?_⟩
        · rw [hp]; simpa using h
        · split
          · rfl
          · split <;> rfl
        · rw [hp]; exact hmem
        · intro hcl
          rw [hcl, hp]
          rfl
        · intro hcl
          rw [hcl] at hf ⊢
          rw [if_neg (by decide)] at hf ⊢
          rw [hp]
          cases hk : treeCleanup e.rm p.2 (e.out e.labDir) with
          | none => rw [hk] at hf; cases hf
          | some fs' => exact treeCleanup_spec hk

/-- C141: the name of the tarball contains `.tar`: it is the specified name, or the specified name with `.tar.gz` added to a name
without `.tar`. -/
theorem C141_tarball_name (t : String) :
    ((∃ a b, t.toList = a ++ ".tar".toList ++ b) → tarballFile t = t) ∧
    ((¬ ∃ a b, t.toList = a ++ ".tar".toList ++ b) → tarballFile t = t ++ ".tar.gz") := by
  unfold tarballFile
  constructor
  · intro h
    rw [if_pos ((subStr_iff _ _).2 h)]
  · intro h
    rw [if_neg (fun hh => h ((subStr_iff _ _).1 hh))]

/-- Configurations are collected from a lab in `/lab` by a user working in `/home` -/
def remoteCollect : CollectEnv :=
  { runDir := ["home"], labDir := ["lab"], absolute := false, output := ["config"],
    playbook := fun fs o => (true, fs ++ [(o ++ ["r1.cfg"], "router r1")]), tar := some "lab1", tarOk := true, cleanup := true,
    rm := fun _ => true }

example : (collectRun { remoteCollect with labDir := ["home"] } [(["home", "config", "old.cfg"], "old")]).archive =
    some ("lab1.tar.gz", [(["home", "config"], "directory"), (["home", "config", "r1.cfg"], "router r1")]) := by
  decide +kernel

/-- C141 (defect): `netlab collect --instance --tar` creates the tarball in the directory in which it was started, the configurations
are in the lab directory.  The tarball is not created, or it contains the unrelated files found in the output directory
of that name; and `--cleanup` removes these files. -/
theorem C141_instance_tarball :
    (collectRun remoteCollect []).fatal = true ∧
    ((collectRun remoteCollect [(["home", "config", "mine.cfg"], "my file")]).archive =
      some ("lab1.tar.gz", [(["home", "config", "mine.cfg"], "my file")]) ∧
     (collectRun remoteCollect [(["home", "config", "mine.cfg"], "my file")]).fs =
      [(["lab", "config"], "directory"), (["lab", "config", "r1.cfg"], "router r1")]) := by
  decide +kernel

end Netlab
