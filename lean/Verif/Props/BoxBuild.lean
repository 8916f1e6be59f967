import Verif.Model.BoxBuild
import Verif.Spec.BoxBuild
import Verif.Props.Confirm
/-!
# C154: `netlab libvirt package` builds and installs a Vagrant box
-/

namespace Netlab

open Spec

section
variable (answers : List String) (skip : String) (out : BbStep → BbOut) (left : BbStep → Bool) (h : BbHost)

/-- C154: boxes are not built while there are labs running on the host, or before the user answers the question; nothing is changed. -/
theorem C154_not_started (labs : Bool)
    (hl : labs = true ∨ ∀ a ∈ answers, a ∉ yesAnswers ∧ a ∉ noAnswers) :
    bbRun labs answers skip out left h = (h, .exit, []) := by
  unfold bbRun
  rcases hl with rfl | hl
  · rfl
  · cases labs
    · rw [((C153_confirm answers).2).mpr hl]; rfl
    · rfl

/-- C154, defect: the answer is not used.  The box is built even when the user answers "no" ("User decided to abort the box building
process" is displayed). -/
theorem C154_answer_ignored (other : List String) (b b' : Bool) (ha : Answered answers b) (hb : Answered other b') :
    bbRun false answers skip out left h = bbRun false other skip out left h := by
  unfold bbRun
  rw [((C153_confirm answers).1 b).mpr ha, ((C153_confirm other).1 b').mpr hb]

theorem bbSteps_trace (l : List BbStep) :
    (bbSteps out left h l).2.2 <+: l ∧
    ((bbSteps out left h l).2.1 = .ok ↔ ∀ s ∈ l, out s = .ok) ∧
    ((bbSteps out left h l).2.1 = .ok → (bbSteps out left h l).2.2 = l) ∧
    ((bbSteps out left h l).2.1 ≠ .ok → ∃ b s, (bbSteps out left h l).2.2 = b ++ [s] ∧ (∀ x ∈ b, out x = .ok) ∧
      out s = (bbSteps out left h l).2.1) := by
  induction l generalizing h with
  | nil => simp [bbSteps]
  | cons s r ih =>
    unfold bbSteps
    simp only
    by_cases hs : out s = .ok
    · rw [if_pos hs]
      obtain ⟨h1, h2, h3, h4⟩ := ih (bbEffect (out s) (left s) s h)
      refine ⟨?_, ?_, ?_, ?_⟩
      · simpa using h1
      · rw [h2]; simp [hs]
      · intro e; rw [h3 e]
      · intro e
        obtain ⟨b, x, e1, e2, e3⟩ := h4 e
        refine ⟨s :: b, x, by rw [e1]; rfl, ?_, e3⟩
        intro y hy
        rcases List.mem_cons.mp hy with rfl | hy
        · exact hs
        · exact e2 y hy
    · rw [if_neg hs]
      refine ⟨by simp, by simp [hs], fun e => absurd e hs, fun _ => ⟨[], s, rfl, by simp, rfl⟩⟩

theorem textIn_nil (name : String) (hn : name.toList ≠ []) : textIn name.toList "".toList = false := by
  cases hl : name.toList with
  | nil => exact absurd hl hn
  | cons c r => rfl

theorem bbUnless_empty (name : String) (s : BbStep) (hn : name.toList ≠ []) : bbUnless "" name s = [s] := by
  unfold bbUnless
  rw [textIn_nil name hn]
  rfl

theorem bb_noskip : bbBefore "" = [.clean, .startNet, .workdir, .preinstall] ∧
    bbBody "" = [.disk, .iso, .vm, .stopNet, .box, .cleanAll] ∧ bbUnless "" "install" .install = [.install] := by
  decide +kernel

/-- C154: when all steps succeed, the box is created and installed, and the virtual machine, the management network and the build
directory are removed. -/
theorem C154_success (b : Bool) (ha : Answered answers b) (hok : ∀ s, out s = .ok) :
    bbRun false answers "" out left h = (⟨false, false, false, true, true⟩, .ok, allSteps) := by
  obtain ⟨e1, e2, e3⟩ := bb_noskip
  unfold bbRun
  rw [((C153_confirm answers).1 b).mpr ha]
  simp [e1, e2, e3, bbSteps, hok, bbEffect, allSteps]

/-- C154: the steps are executed in the correct order (none of them after a step that fails): every step comes after all
earlier steps that are not skipped. -/
theorem C154_order (labs : Bool) :
    (bbRun labs answers skip out left h).2.2 <+: bbBefore skip ++ bbBody skip ++ bbUnless skip "install" .install ∧
    (bbBefore skip ++ bbBody skip ++ bbUnless skip "install" .install).Sublist allSteps ∧
    bbBefore "" ++ bbBody "" ++ bbUnless "" "install" .install = allSteps := by
  refine ⟨?_, ?_, by decide +kernel⟩
  · unfold bbRun
    cases labs
    · cases hc : confirm answers with
      | none => simp
      | some x =>
        simp only [Bool.false_eq_true, if_false]
        obtain ⟨t1, -, k1, -⟩ := bbSteps_trace out left h (bbBefore skip)
        have p1 : (bbSteps out left h (bbBefore skip)).2.2 <+: bbBefore skip ++ bbBody skip ++ bbUnless skip "install" .install := by
          rw [List.append_assoc]; exact t1.trans (List.prefix_append _ _)
        split
        · exact p1
        · split
          · exact p1
          · rename_i _ hok
            have hk := k1 (by simpa using hok)
            rw [hk]
            obtain ⟨t2, -, k2, -⟩ := bbSteps_trace out left (bbSteps out left h (bbBefore skip)).1 (bbBody skip)
            have p2 : bbBefore skip ++ (bbSteps out left (bbSteps out left h (bbBefore skip)).1 (bbBody skip)).2.2 <+:
                bbBefore skip ++ bbBody skip ++ bbUnless skip "install" .install := by
              rw [List.append_assoc, List.prefix_append_right_inj]
              exact t2.trans (List.prefix_append _ _)
            split
            · exact p2
            · exact p2
            · exact p2
            · rename_i hok2
              rw [k2 hok2]
              obtain ⟨t3, -⟩ := bbSteps_trace out left
                (bbSteps out left (bbSteps out left h (bbBefore skip)).1 (bbBody skip)).1 (bbUnless skip "install" .install)
              rw [List.prefix_append_right_inj]
              exact t3
    · simp
  · unfold bbBefore bbBody bbUnless
    cases textIn "preinstall".toList skip.toList <;> cases textIn "disk".toList skip.toList <;> cases textIn "iso".toList skip.toList <;>
      cases textIn "vm".toList skip.toList <;> cases textIn "box".toList skip.toList <;> cases textIn "install".toList skip.toList <;>
      decide

/-- C154: nothing is left on the host when the user interrupts the process, at any step. -/
theorem C154_interrupt (labs : Bool) (hi : (bbRun labs answers skip out left h).2.1 = .interrupt) :
    NothingLeft (bbRun labs answers skip out left h).1 := by
  have hc : ∀ x, NothingLeft (bbClean x) := fun x => ⟨rfl, rfl, rfl⟩
  unfold bbRun at hi ⊢
  cases labs
  · cases hcf : confirm answers with
    | none => rw [hcf] at hi; cases hi
    | some b =>
      rw [hcf] at hi
      simp only [Bool.false_eq_true, if_false] at hi ⊢
      by_cases h1 : (bbSteps out left h (bbBefore skip)).2.1 = .interrupt
      · rw [if_pos h1]; exact hc _
      · rw [if_neg h1] at hi ⊢
        by_cases h2 : (bbSteps out left h (bbBefore skip)).2.1 ≠ .ok
        · rw [if_pos h2] at hi; exact absurd hi h1
        · rw [if_neg h2] at hi ⊢
          cases h3 : (bbSteps out left (bbSteps out left h (bbBefore skip)).1 (bbBody skip)).2.1 with
          | interrupt => exact hc _
          | exit => rw [h3] at hi; cases hi
          | exception => rw [h3] at hi; cases hi
          | ok =>
            rw [h3] at hi
            simp only at hi ⊢
            rw [if_pos hi]
            exact hc _
  · cases hi

/-- C154: nothing is left on the host when an exception is raised while the box is built (in any step after the pre-install script),
and the box is not installed. -/
theorem C154_exception (b : Bool) (ha : Answered answers b)
    (hpre : ∀ s ∈ [BbStep.clean, .startNet, .workdir, .preinstall], out s = .ok) (hinst : out .install = .ok)
    (hex : (bbRun false answers "" out left h).2.1 = .exception) :
    NothingLeft (bbRun false answers "" out left h).1 ∧ .install ∉ (bbRun false answers "" out left h).2.2 := by
  obtain ⟨e1, e2, e3⟩ := bb_noskip
  unfold bbRun at hex ⊢
  rw [((C153_confirm answers).1 b).mpr ha] at hex ⊢
  simp only [Bool.false_eq_true, if_false, e1, e2, e3] at hex ⊢
  obtain ⟨-, k, kk, -⟩ := bbSteps_trace out left h [.clean, .startNet, .workdir, .preinstall]
  have hok := k.mpr hpre
  rw [if_neg (by rw [hok]; simp), if_neg (by rw [hok]; simp)] at hex ⊢
  generalize (bbSteps out left h [.clean, .startNet, .workdir, .preinstall]).1 = h1 at hex ⊢
  rw [kk hok]
  cases h3 : (bbSteps out left h1 [.disk, .iso, .vm, .stopNet, .box, .cleanAll]).2.1 with
  | interrupt => rw [h3] at hex; cases hex
  | exit => rw [h3] at hex; cases hex
  | ok => rw [h3] at hex; simp [bbSteps, hinst] at hex
  | exception =>
    simp only [if_true]
    refine ⟨⟨rfl, rfl, rfl⟩, ?_⟩
    obtain ⟨t, -⟩ := bbSteps_trace out left h1 [.disk, .iso, .vm, .stopNet, .box, .cleanAll]
    simp only [List.mem_append, not_or]
    refine ⟨by decide, fun hm => ?_⟩
    have := t.subset hm
    revert this
    decide

/-- C154: a box is installed only after the file with the box was created and everything else was removed. -/
theorem C154_installed (labs : Bool) (h0 : h.installed = false) (hi : (bbRun labs answers "" out left h).1.installed = true) :
    (bbRun labs answers "" out left h).2.2 = allSteps ∧ (∀ s ∈ allSteps, out s = .ok) ∧
    (bbRun labs answers "" out left h).1 = ⟨false, false, false, true, true⟩ := by
  obtain ⟨e1, e2, e3⟩ := bb_noskip
  have hkeep : ∀ (l : List BbStep) (x : BbHost), .install ∉ l → (bbSteps out left x l).1.installed = x.installed := by
    intro l
    induction l with
    | nil => intro x _; rfl
    | cons s r ih =>
      intro x hs
      simp only [List.mem_cons, not_or] at hs
      have : (bbEffect (out s) (left s) s x).installed = x.installed := by
        cases s with
        | install => exact absurd rfl hs.1
        | clean => simp only [bbEffect]; split <;> rfl
        | cleanAll => simp only [bbEffect]; split <;> rfl
        | stopNet => simp only [bbEffect]; split <;> rfl
        | _ => rfl
      unfold bbSteps
      simp only
      split
      · rw [← this]; exact ih _ hs.2
      · exact this
  unfold bbRun at hi ⊢
  cases labs
  · cases hcf : confirm answers with
    | none => rw [hcf] at hi; simp [h0] at hi
    | some b =>
      rw [hcf] at hi
      simp only [Bool.false_eq_true, if_false, e1, e2, e3] at hi ⊢
      have k1 := hkeep [.clean, .startNet, .workdir, .preinstall] h (by decide)
      obtain ⟨-, o1, kk1, -⟩ := bbSteps_trace out left h [.clean, .startNet, .workdir, .preinstall]
      by_cases h1 : (bbSteps out left h [.clean, .startNet, .workdir, .preinstall]).2.1 = .interrupt
      · rw [if_pos h1] at hi
        have : (bbClean (bbSteps out left h [.clean, .startNet, .workdir, .preinstall]).1).installed = false := by
          rw [← h0, ← k1]; rfl
        rw [this] at hi; cases hi
      · rw [if_neg h1] at hi ⊢
        by_cases h2 : (bbSteps out left h [.clean, .startNet, .workdir, .preinstall]).2.1 = .ok
        · rw [if_neg (by rw [h2]; simp)] at hi ⊢
          have k2 := hkeep [.disk, .iso, .vm, .stopNet, .box, .cleanAll]
            (bbSteps out left h [.clean, .startNet, .workdir, .preinstall]).1 (by decide)
          rw [k1, h0] at k2
          obtain ⟨-, o2, kk2, -⟩ := bbSteps_trace out left (bbSteps out left h [.clean, .startNet, .workdir, .preinstall]).1
            [.disk, .iso, .vm, .stopNet, .box, .cleanAll]
          cases h3 : (bbSteps out left (bbSteps out left h [.clean, .startNet, .workdir, .preinstall]).1
              [.disk, .iso, .vm, .stopNet, .box, .cleanAll]).2.1 with
          | interrupt => rw [h3] at hi; simp only at hi; exact absurd hi (by rw [show (bbClean _).installed = _ from rfl]; simp [bbClean, bbEffect, k2])
          | exit => rw [h3] at hi; simp only at hi; rw [k2] at hi; cases hi
          | exception => rw [h3] at hi; simp only [if_true] at hi; simp [bbClean, bbEffect, k2] at hi
          | ok =>
            rw [h3] at hi
            simp only at hi ⊢
            have hin : out .install = .ok := by
              by_cases hin : out .install = .ok
              · exact hin
              · exfalso
                generalize (bbSteps out left (bbSteps out left h [.clean, .startNet, .workdir, .preinstall]).1
                  [.disk, .iso, .vm, .stopNet, .box, .cleanAll]).1 = h4 at hi k2
                have h5 : (bbSteps out left h4 [.install]).1.installed = false := by
                  simp [bbSteps, hin, bbEffect, k2]
                split at hi
                · simp [bbClean, bbEffect, h5] at hi
                · rw [h5] at hi; cases hi
            have hall : ∀ s ∈ allSteps, out s = .ok := by
              have a1 := o1.mp h2
              have a2 := o2.mp h3
              intro s hs
              have : s ∈ [BbStep.clean, .startNet, .workdir, .preinstall] ∨ s ∈ [BbStep.disk, .iso, .vm, .stopNet, .box, .cleanAll] ∨
                  s = .install := by
                revert hs; cases s <;> decide
              rcases this with h | h | h
              · exact a1 s h
              · exact a2 s h
              · rw [h]; exact hin
            refine ⟨?_, hall, ?_⟩
            · rw [kk1 h2, kk2 h3]
              simp [bbSteps, hin, allSteps]
            · have f : ∀ s, s ∈ allSteps → out s = .ok := hall
              have g1 := f .clean (by decide)
              have g2 := f .startNet (by decide)
              have g3 := f .workdir (by decide)
              have g4 := f .preinstall (by decide)
              have g5 := f .disk (by decide)
              have g6 := f .iso (by decide)
              have g7 := f .vm (by decide)
              have g8 := f .stopNet (by decide)
              have g9 := f .box (by decide)
              have g10 := f .cleanAll (by decide)
              simp [bbSteps, g1, g2, g3, g4, g5, g6, g7, g8, g9, g10, hin, bbEffect]
        · rw [if_pos h2] at hi
          rw [k1, h0] at hi
          cases hi
  · simp [h0] at hi

end

/-- C154, defect: when an external command fails (here: the one starting the virtual machine), the program stops without removing
the virtual machine, the management network and the build directory. -/
theorem C154_left_behind :
    (bbRun false ["yes"] "" (fun s => if s = .vm then .exit else .ok) (fun _ => true) ⟨false, false, false, false, false⟩).1 =
      ⟨true, true, true, false, false⟩ := by decide +kernel

example : bbRun false ["no"] "" (fun _ => .ok) (fun _ => false) ⟨true, false, true, false, false⟩ =
      (⟨false, false, false, true, true⟩, .ok, allSteps) ∧
    bbRun false ["y"] "install" (fun s => if s = .box then .interrupt else .ok) (fun _ => true) ⟨false, false, false, false, false⟩ =
      (⟨false, false, false, true, false⟩, .interrupt, [.clean, .startNet, .workdir, .preinstall, .disk, .iso, .vm, .stopNet, .box]) ∧
    (bbRun false ["y"] "" (fun s => if s = .disk then .exception else .ok) (fun _ => true) ⟨false, false, false, false, false⟩).2.1 =
      .exception := by
  decide +kernel

/-! ### The disk -/

theorem commandWords_words (ws : List (List Char)) (hne : ws ≠ []) (h : ∀ w ∈ ws, Word w) :
    commandWords (List.intercalate [' '] ws) = ws := by
  unfold commandWords
  rw [splitOnChar_intercalate ' ' ws hne (fun w hw => (h w hw).2), List.filter_eq_self]
  intro w hw
  have := (h w hw).1
  simpa using this

/-- C154: the disk of the virtual machine is made from the file given by the user (or from the first VMDK file in the
current directory after an OVA archive is extracted); the command gets the names of these files when they do not contain spaces.
The process continues only when all commands succeed. -/
theorem C154_disk (name workdir : List Char) (glob : List (List Char)) (ok : List (List Char) → Bool)
    (hn : Word name) (hw : Word workdir) (hg : ∀ g ∈ glob, Word g) :
    let copy (n : List Char) : List (List Char) :=
      if ".vmdk".toList <:+: n then
        ["qemu-img".toList, "convert".toList, "-f".toList, "vmdk".toList, "-O".toList, "qcow2".toList, n, workdir ++ "/vm.qcow2".toList]
      else ["cp".toList, n, workdir ++ "/vm.qcow2".toList]
    (¬ ".ova".toList <:+: name → vmDisk name workdir glob ok = ([copy name], ok (copy name))) ∧
    (".ova".toList <:+: name → ok ["tar".toList, "xvf".toList, name] = true → ∀ g r, glob = g :: r →
      vmDisk name workdir glob ok = ([["tar".toList, "xvf".toList, name], copy g], ok (copy g))) ∧
    (".ova".toList <:+: name → (ok ["tar".toList, "xvf".toList, name] = false ∨ glob = []) →
      vmDisk name workdir glob ok = ([["tar".toList, "xvf".toList, name]], false)) := by
  intro copy
  have hwt : Word (workdir ++ "/vm.qcow2".toList) := by
    refine ⟨by simp [hw.1], ?_⟩
    rw [List.mem_append, not_or]
    exact ⟨hw.2, by decide⟩
  have hq : ∀ n, Word n → commandWords ("qemu-img convert -f vmdk -O qcow2 ".toList ++ n ++ [' '] ++ (workdir ++ "/vm.qcow2".toList)) =
      ["qemu-img".toList, "convert".toList, "-f".toList, "vmdk".toList, "-O".toList, "qcow2".toList, n, workdir ++ "/vm.qcow2".toList] := by
    intro n hn
    rw [← commandWords_words ["qemu-img".toList, "convert".toList, "-f".toList, "vmdk".toList, "-O".toList, "qcow2".toList, n,
      workdir ++ "/vm.qcow2".toList] (by simp) ?_]
    · congr 1
      simp [List.intercalate, List.intersperse]
    · intro w hw'
      simp only [List.mem_cons, List.not_mem_nil, or_false] at hw'
      rcases hw' with rfl | rfl | rfl | rfl | rfl | rfl | rfl | rfl
      case inr.inr.inr.inr.inr.inr.inl => exact hn
      case inr.inr.inr.inr.inr.inr.inr => exact hwt
      all_goals exact ⟨by decide, by decide⟩
  have hc : ∀ n, Word n → commandWords ("cp ".toList ++ n ++ [' '] ++ (workdir ++ "/vm.qcow2".toList)) =
      ["cp".toList, n, workdir ++ "/vm.qcow2".toList] := by
    intro n hn
    rw [← commandWords_words ["cp".toList, n, workdir ++ "/vm.qcow2".toList] (by simp) ?_]
    · congr 1
      simp [List.intercalate, List.intersperse]
    · intro w hw'
      simp only [List.mem_cons, List.not_mem_nil, or_false] at hw'
      rcases hw' with rfl | rfl | rfl
      · exact ⟨by decide, by decide⟩
      · exact hn
      · exact hwt
  have ht : commandWords ("tar xvf ".toList ++ name) = ["tar".toList, "xvf".toList, name] := by
    rw [← commandWords_words ["tar".toList, "xvf".toList, name] (by simp) ?_]
    · congr 1
      simp [List.intercalate, List.intersperse]
    · intro w hw'
      simp only [List.mem_cons, List.not_mem_nil, or_false] at hw'
      rcases hw' with rfl | rfl | rfl
      · exact ⟨by decide, by decide⟩
      · exact ⟨by decide, by decide⟩
      · exact hn
  have hl : ∀ n, Word n → (if textIn ".vmdk".toList n = true then
      commandWords ("qemu-img convert -f vmdk -O qcow2 ".toList ++ n ++ [' '] ++ (workdir ++ "/vm.qcow2".toList))
      else commandWords ("cp ".toList ++ n ++ [' '] ++ (workdir ++ "/vm.qcow2".toList))) = copy n := by
    intro n hn
    rw [hq n hn, hc n hn]
    simp only [textIn_iff, copy]
  unfold vmDisk
  simp only [ht]
  refine ⟨?_, ?_, ?_⟩
  · intro h1
    rw [if_neg (by rw [textIn_iff]; exact h1), hl name hn]
  · intro h1 h2 g r hgr
    subst hgr
    rw [if_pos ((textIn_iff _ _).mpr h1), if_pos h2]
    simp only
    rw [hl g (hg g (by simp))]
  · intro h1 h2
    rw [if_pos ((textIn_iff _ _).mpr h1)]
    rcases h2 with h2 | h2
    · rw [if_neg (by rw [h2]; simp)]
    · subst h2
      split <;> rfl

/-- C154, defects: the name of the disk with a space is split into two files; another VMDK file in the current directory can be used
instead of the one in the OVA archive. -/
theorem C154_wrong_disk :
    vmDisk "my disk.qcow2".toList "/tmp/build_x".toList [] (fun _ => true) =
      ([["cp".toList, "my".toList, "disk.qcow2".toList, "/tmp/build_x/vm.qcow2".toList]], true) ∧
    vmDisk "new.ova".toList "/tmp/build_x".toList ["old.vmdk".toList, "new.vmdk".toList] (fun _ => true) =
      ([["tar".toList, "xvf".toList, "new.ova".toList],
        ["qemu-img".toList, "convert".toList, "-f".toList, "vmdk".toList, "-O".toList, "qcow2".toList, "old.vmdk".toList,
          "/tmp/build_x/vm.qcow2".toList]], true) := by
  decide +kernel

example : Word "disk.qcow2".toList ∧ Word "/tmp/build_x".toList ∧ ¬ ".ova".toList <:+: "disk.qcow2".toList := by
  refine ⟨⟨by decide, by decide⟩, ⟨by decide, by decide⟩, ?_⟩
  rw [← textIn_iff]
  decide

/-! ### The version -/

theorem alnum_iff (c : Char) : versionStart c = true ↔
    c ∈ "abcdefghijklmnopqrstuvwxyzABCDEFGHIJKLMNOPQRSTUVWXYZ0123456789_".toList := by
  constructor
  · intro h
    simp only [versionStart, Char.isDigit, Char.isAlpha, Char.isUpper, Char.isLower, Bool.or_eq_true, Bool.and_eq_true,
      decide_eq_true_eq, beq_iff_eq] at h
    have hn : (48 ≤ c.toNat ∧ c.toNat ≤ 57) ∨ (65 ≤ c.toNat ∧ c.toNat ≤ 90) ∨ (97 ≤ c.toNat ∧ c.toNat ≤ 122) ∨ c.toNat = 95 := by
      rcases h with (⟨h1, h2⟩ | ⟨h1, h2⟩ | ⟨h1, h2⟩) | rfl
      · exact Or.inl ⟨UInt32.le_iff_toNat_le.mp h1, UInt32.le_iff_toNat_le.mp h2⟩
      · exact Or.inr (Or.inl ⟨UInt32.le_iff_toNat_le.mp h1, UInt32.le_iff_toNat_le.mp h2⟩)
      · exact Or.inr (Or.inr (Or.inl ⟨UInt32.le_iff_toNat_le.mp h1, UInt32.le_iff_toNat_le.mp h2⟩))
      · exact Or.inr (Or.inr (Or.inr rfl))
    have hc : c = Char.ofNat c.toNat := (Char.ofNat_toNat c).symm
    rw [hc]
    have hb : ∀ n, n < 123 → ((48 ≤ n ∧ n ≤ 57) ∨ (65 ≤ n ∧ n ≤ 90) ∨ (97 ≤ n ∧ n ≤ 122) ∨ n = 95) →
        Char.ofNat n ∈ "abcdefghijklmnopqrstuvwxyzABCDEFGHIJKLMNOPQRSTUVWXYZ0123456789_".toList := by decide +kernel
    exact hb _ (by omega) hn
  · intro h
    have hb : ∀ c ∈ "abcdefghijklmnopqrstuvwxyzABCDEFGHIJKLMNOPQRSTUVWXYZ0123456789_".toList, versionStart c = true := by
      decide +kernel
    exact hb c h

theorem validVersion_iff (v : String) : validVersion v = true ↔ GoodVersion v := by
  have hsp : "abcdefghijklmnopqrstuvwxyzABCDEFGHIJKLMNOPQRSTUVWXYZ0123456789_.-".toList =
      "abcdefghijklmnopqrstuvwxyzABCDEFGHIJKLMNOPQRSTUVWXYZ0123456789_".toList ++ ['.', '-'] := by decide +kernel
  have hd : versionStart '.' = false ∧ versionStart '-' = false := by decide
  unfold validVersion GoodVersion
  rw [hsp]
  cases hl : v.toList with
  | nil =>
    have : v = "" := by rw [← String.ofList_toList (s := v), hl]
    simp [this]
  | cons c r =>
    have hne : v ≠ "" := by rintro rfl; simp at hl
    simp only [Bool.and_eq_true, decide_eq_true_eq, List.all_eq_true, Bool.or_eq_true, beq_iff_eq, List.length_cons,
      List.mem_cons, List.mem_append, List.not_mem_nil, or_false, ← alnum_iff, List.head?_cons, ne_eq, Option.some.injEq, hne,
      not_false_eq_true, true_and, forall_eq_or_imp, or_assoc]
    constructor
    · rintro ⟨⟨h1, h2⟩, h3⟩
      refine ⟨by omega, ⟨Or.inl h1, h3⟩, ?_, ?_⟩
      · rintro rfl; rw [hd.1] at h1; cases h1
      · rintro rfl; rw [hd.2] at h1; cases h1
    · rintro ⟨h1, ⟨h2, h3⟩, h4, h5⟩
      refine ⟨⟨?_, by omega⟩, h3⟩
      rcases h2 with h | h | h
      · exact h
      · exact absurd h h4
      · exact absurd h h5

/-- C154: the version of the box is the first acceptable answer of the user. -/
theorem C154_version (answers : List String) (v : String) :
    askVersion answers = some v ↔ ∃ b r, answers = b ++ v :: r ∧ (∀ x ∈ b, ¬ GoodVersion x) ∧ GoodVersion v := by
  unfold askVersion
  rw [List.find?_eq_some_iff_append, validVersion_iff]
  constructor
  · rintro ⟨h1, b, r, h2, h3⟩
    refine ⟨b, r, h2, fun x hx hg => ?_, h1⟩
    have := h3 x hx
    rw [(validVersion_iff x).mpr hg] at this
    cases this
  · rintro ⟨b, r, h1, h2, h3⟩
    refine ⟨h3, b, r, h1, fun x hx => ?_⟩
    cases hv : validVersion x with
    | false => rfl
    | true => exact absurd ((validVersion_iff x).mp hv) (h2 x hx)

example : askVersion ["", "9.3/8", "-1", "4.27.0M", "x"] = some "4.27.0M" := by decide +kernel

/-- C154, defect: the names of skipped steps are parts of a text, and `preinstall` contains `install`: the box is not installed when
the pre-install script is skipped. -/
theorem C154_skip_preinstall :
    bbRun false ["y"] "preinstall" (fun _ => .ok) (fun _ => false) ⟨false, false, false, false, false⟩ =
      (⟨false, false, false, true, false⟩, .ok, [.clean, .startNet, .workdir, .disk, .iso, .vm, .stopNet, .box, .cleanAll]) := by
  decide +kernel

end Netlab
