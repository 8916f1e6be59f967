import Verif.Model.Install
import Verif.Spec.Install
/-!
# C152: `netlab install` executes the requested scripts
-/

namespace Netlab

open Spec

section
variable (sys : InstSys) (args : InstArgs) (ans : InstAsk → Bool) (ok : String → Bool)

theorem instPip_some {n : String} {e e' : InstEnv} (h : instPip sys args ans n e = some e') :
    (args.yes = false → (sys.managed = true → ans (.managed n) = true) ∧ (args.user = false → ans (.system n) = true)) ∧
    e' = { sudo := e.sudo && !args.user, user := e.user || args.user,
           pip := e.pip ++ (if sys.managed then ["--break-system-packages"] else []) ++ (if args.user then ["--user"] else []) } := by
  unfold instPip at h
  cases hm : sys.managed <;> cases hy : args.yes <;> cases hu : args.user <;> cases h1 : ans (.managed n) <;> cases h2 : ans (.system n) <;>
    simp [hm, hy, hu, h1, h2] at h ⊢ <;> first | exact h.symm | (cases h; cases e; simp)

theorem instPip_none {n : String} {e : InstEnv} (h : instPip sys args ans n e = none) :
    ¬ (args.yes = false → (sys.managed = true → ans (.managed n) = true) ∧ (args.user = false → ans (.system n) = true)) := by
  unfold instPip at h
  cases hm : sys.managed <;> cases hy : args.yes <;> cases hu : args.user <;> cases h1 : ans (.managed n) <;> cases h2 : ans (.system n) <;>
    simp [hm, hy, hu, h1, h2] at h ⊢

/-- Does the script change `SUDO`? -/
def instDrops (s : InstScript) : Bool := s.pip && (sys.venv || args.user)

theorem instCheck_some {s : InstScript} {e e' : InstEnv} (hp : s.present = true) (h : instCheck sys args ans s e = some e') :
    InstReady sys args ans s ∧ e'.sudo = (e.sudo && !instDrops sys args s) ∧
    e'.pip = e.pip ++ (if s.pip && !sys.venv then (if sys.managed then ["--break-system-packages"] else []) ++
      (if args.user then ["--user"] else []) else []) := by
  unfold instCheck at h
  unfold InstReady instDrops
  cases ha : s.apt && !sys.apt with
  | true => simp [ha] at h
  | false =>
    have ha' : s.apt = true → sys.apt = true := by
      intro h1
      rw [h1] at ha
      simpa using ha
    simp only [ha, Bool.false_eq_true, if_false] at h
    cases hs : s.pip with
    | false => simp [hs] at h ⊢; subst h; exact ⟨⟨hp, ha'⟩, rfl, rfl⟩
    | true =>
      simp only [hs, Bool.not_true, Bool.false_eq_true, if_false] at h
      cases hq : sys.pip with
      | false => simp [hq] at h
      | true =>
        simp only [hq, Bool.not_true, Bool.false_eq_true, if_false] at h
        cases hv : sys.venv with
        | true => simp [hv] at h ⊢; subst h; exact ⟨⟨hp, ha'⟩, rfl, rfl⟩
        | false =>
          simp only [hv, Bool.false_eq_true, if_false] at h
          obtain ⟨h1, h2⟩ := instPip_some sys args ans h
          subst h2
          simp only [Bool.true_and, Bool.false_or, Bool.not_false, if_true, List.append_assoc]
          exact ⟨⟨hp, ha', fun _ => trivial, fun _ _ => h1⟩, trivial, trivial⟩

theorem instCheck_none {s : InstScript} {e : InstEnv} (h : instCheck sys args ans s e = none) : ¬ InstReady sys args ans s := by
  unfold instCheck at h
  rintro ⟨-, h1, h2, h3⟩
  cases ha : s.apt && !sys.apt with
  | true =>
    simp only [Bool.and_eq_true, Bool.not_eq_true'] at ha
    rw [h1 ha.1] at ha
    exact absurd ha.2 (by decide)
  | false =>
    simp only [ha, Bool.false_eq_true, if_false] at h
    cases hs : s.pip with
    | false => simp [hs] at h
    | true =>
      simp only [hs, h2 hs, Bool.not_true, Bool.false_eq_true, if_false] at h
      cases hv : sys.venv with
      | true => simp [hv] at h
      | false =>
        simp only [hv, Bool.false_eq_true, if_false] at h
        exact instPip_none sys args ans h (h3 hs hv)

/-- **C152**: executed scripts are the first ones of the requested scripts, in the same order. -/
theorem C152_prefix (l : List InstScript) : (instRun sys args ans ok l).1.map (·.1) <+: l := by
  have key : ∀ l e, (instScripts sys args ans ok e l).1.map (·.1) <+: l := by
    intro l
    induction l with
    | nil => intro e; exact List.prefix_rfl
    | cons s r ih =>
      intro e
      simp only [instScripts]
      split
      · exact List.nil_prefix
      · split
        · exact List.nil_prefix
        · split
          · rw [List.map_cons, List.cons_prefix_cons]
            exact ⟨rfl, ih _⟩
          · rw [List.map_cons, List.cons_prefix_cons]
            exact ⟨rfl, List.nil_prefix⟩
  unfold instRun
  split
  · exact List.nil_prefix
  · split
    · exact List.nil_prefix
    · exact key _ _

/-- **C152**: a script is executed only when its requirements are met: it exists, the commands it uses are available, and the user
confirmed changes of a managed Python installation and of system directories. -/
theorem C152_ready (l : List InstScript) (s : InstScript) (e : InstEnv) (h : (s, e) ∈ (instRun sys args ans ok l).1) :
    InstReady sys args ans s := by
  have key : ∀ l e0, (s, e) ∈ (instScripts sys args ans ok e0 l).1 → InstReady sys args ans s := by
    intro l
    induction l with
    | nil => intro e0 h; cases h
    | cons x r ih =>
      intro e0 h
      simp only [instScripts] at h
      split at h
      · cases h
      · rename_i hp
        have hp : x.present = true := by simpa using hp
        split at h
        · cases h
        · rename_i e' he
          have hr := (instCheck_some sys args ans hp he).1
          split at h
          · rcases List.mem_cons.mp h with h | h
            · cases h; exact hr
            · exact ih _ h
          · rcases List.mem_cons.mp h with h | h
            · cases h; exact hr
            · cases h
  unfold instRun at h
  split at h
  · cases h
  · split at h
    · cases h
    · exact key _ _ h

/-- **C152**: nothing is executed after a script that failed. -/
theorem C152_stop (l : List InstScript) (pre post : List (InstScript × InstEnv)) (x : InstScript × InstEnv)
    (h : (instRun sys args ans ok l).1 = pre ++ x :: post) (hp : post ≠ []) : ok x.1.name = true := by
  have key : ∀ l e pre, (instScripts sys args ans ok e l).1 = pre ++ x :: post → ok x.1.name = true := by
    intro l
    induction l with
    | nil => intro e pre h; simp [instScripts] at h
    | cons s r ih =>
      intro e pre h
      simp only [instScripts] at h
      split at h
      · simp at h
      · split at h
        · simp at h
        · split at h
          · rename_i hok
            cases pre with
            | nil =>
              simp only [List.nil_append, List.cons.injEq] at h
              rw [← h.1]; exact hok
            | cons y z =>
              simp only [List.cons_append, List.cons.injEq] at h
              exact ih _ _ h.2
          · cases pre with
            | nil =>
              simp only [List.nil_append, List.cons.injEq] at h
              exact absurd h.2.symm hp
            | cons y z => simp at h
  unfold instRun at h
  split at h
  · simp at h
  · split at h
    · simp at h
    · exact key _ _ _ h

/-- **C152**: the command completes when scripts are requested, the user is `root`, can use `sudo` or does not want to, and all scripts
are executed and succeed. -/
theorem C152_complete (l : List InstScript) : (instRun sys args ans ok l).2 = true ↔
    l ≠ [] ∧ (sys.root = true ∨ sys.sudo = true ∨ ans .noSudo = true) ∧ ∀ s ∈ l, InstReady sys args ans s ∧ ok s.name = true := by
  have key : ∀ l e, (instScripts sys args ans ok e l).2 = true ↔ ∀ s ∈ l, InstReady sys args ans s ∧ ok s.name = true := by
    intro l
    induction l with
    | nil => intro e; simp [instScripts]
    | cons s r ih =>
      intro e
      simp only [instScripts]
      split
      · rename_i hp
        constructor
        · intro h; cases h
        · intro h
          have := (h s List.mem_cons_self).1.1
          rw [this] at hp
          simp at hp
      · rename_i hp
        have hp : s.present = true := by simpa using hp
        split
        · rename_i hc
          constructor
          · intro h; cases h
          · intro h
            exact absurd (h s List.mem_cons_self).1 (instCheck_none sys args ans hc)
        · rename_i e' hc
          have hr := (instCheck_some sys args ans hp hc).1
          split
          · rename_i hok
            dsimp only
            rw [ih]
            constructor
            · intro h t ht
              rcases List.mem_cons.mp ht with rfl | ht
              · exact ⟨hr, hok⟩
              · exact h t ht
            · intro h t ht
              exact h t (List.mem_cons_of_mem _ ht)
          · rename_i hok
            constructor
            · intro h; cases h
            · intro h
              exact absurd (h s List.mem_cons_self).2 hok
  have hs : ∀ e, (instSudo sys ans e).isSome = true ↔ (sys.root = true ∨ sys.sudo = true ∨ ans .noSudo = true) := by
    intro e
    unfold instSudo
    cases sys.root <;> cases sys.sudo <;> cases ans .noSudo <;> simp
  unfold instRun
  cases l with
  | nil => simp
  | cons s r =>
    simp only [List.isEmpty_cons, Bool.false_eq_true, if_false]
    have h1 := hs (instFlags args)
    cases hq : instSudo sys ans (instFlags args) with
    | none =>
      rw [hq] at h1
      simp only [Option.isSome_none, Bool.false_eq_true, false_iff] at h1
      simp [h1]
    | some e =>
      rw [hq] at h1
      simp only [Option.isSome_some, true_iff] at h1
      dsimp only
      rw [key]
      simp [h1]

/-- **C152**: scripts are executed with `sudo` if the user is not `root` and there is `sudo` on the system, unless this script or one of
the scripts before it installs Python libraries in a virtual environment or for the user. -/
theorem C152_sudo (l : List InstScript) (pre post : List (InstScript × InstEnv)) (s : InstScript) (e : InstEnv)
    (h : (instRun sys args ans ok l).1 = pre ++ (s, e) :: post) :
    e.sudo = (!sys.root && sys.sudo && (pre.map (·.1) ++ [s]).all (fun x => !(x.pip && (sys.venv || args.user)))) := by
  have key : ∀ l e0 pre, (instScripts sys args ans ok e0 l).1 = pre ++ (s, e) :: post →
      e.sudo = (e0.sudo && (pre.map (·.1) ++ [s]).all (fun x => !(x.pip && (sys.venv || args.user)))) := by
    intro l
    induction l with
    | nil => intro e0 pre h; simp [instScripts] at h
    | cons x r ih =>
      intro e0 pre h
      simp only [instScripts] at h
      split at h
      · simp at h
      · rename_i hp
        have hp : x.present = true := by simpa using hp
        split at h
        · simp at h
        · rename_i e' hc
          have hr := (instCheck_some sys args ans hp hc).2.1
          unfold instDrops at hr
          split at h
          · cases pre with
            | nil =>
              simp only [List.nil_append, List.cons.injEq, Prod.mk.injEq] at h
              obtain ⟨⟨rfl, rfl⟩, -⟩ := h
              rw [hr]
              simp
            | cons y z =>
              simp only [List.cons_append, List.cons.injEq] at h
              obtain ⟨hy, hz⟩ := h
              rw [ih _ _ hz, hr, ← hy]
              simp [Bool.and_assoc]
          · cases pre with
            | nil =>
              simp only [List.nil_append, List.cons.injEq, Prod.mk.injEq] at h
              obtain ⟨⟨rfl, rfl⟩, -⟩ := h
              rw [hr]
              simp
            | cons y z => simp at h
  unfold instRun at h
  split at h
  · simp at h
  · split at h
    · simp at h
    · rename_i e0 he
      rw [key _ _ _ h]
      congr 1
      unfold instSudo at he
      cases h1 : sys.root <;> cases h2 : sys.sudo <;> cases h3 : ans .noSudo <;> simp [h1, h2, h3] at he <;> rw [← he] <;> simp

/-- **C152**: a script that installs Python libraries outside a virtual environment has the flags it needs: a managed installation is
changed only with a flag, and libraries are installed for the user when requested. -/
theorem C152_pip (l : List InstScript) (s : InstScript) (e : InstEnv) (h : (s, e) ∈ (instRun sys args ans ok l).1) (hs : s.pip = true)
    (hv : sys.venv = false) :
    (sys.managed = true → "--break-system-packages" ∈ e.pip) ∧ (args.user = true → "--user" ∈ e.pip) := by
  have key : ∀ l e0, (s, e) ∈ (instScripts sys args ans ok e0 l).1 →
      (sys.managed = true → "--break-system-packages" ∈ e.pip) ∧ (args.user = true → "--user" ∈ e.pip) := by
    intro l
    induction l with
    | nil => intro e0 h; cases h
    | cons x r ih =>
      intro e0 h
      simp only [instScripts] at h
      split at h
      · cases h
      · rename_i hp
        have hp : x.present = true := by simpa using hp
        split at h
        · cases h
        · rename_i e' he
          have hr := (instCheck_some sys args ans hp he).2.2
          have here : (s, e) = (x, e') → (sys.managed = true → "--break-system-packages" ∈ e.pip) ∧ (args.user = true → "--user" ∈ e.pip) := by
            intro heq
            cases heq
            rw [hr, hs, hv]
            constructor
            · intro hm; simp [hm]
            · intro hu; simp [hu]
          split at h
          · rcases List.mem_cons.mp h with h | h
            · exact here h
            · exact ih _ h
          · rcases List.mem_cons.mp h with h | h
            · exact here h
            · cases h
  unfold instRun at h
  split at h
  · cases h
  · split at h
    · cases h
    · exact key _ _ h

/-- **C152**: without managed Python and without a request for user installation these flags are never used. -/
theorem C152_no_flags (l : List InstScript) (s : InstScript) (e : InstEnv) (h : (s, e) ∈ (instRun sys args ans ok l).1) :
    (sys.managed = false ∨ sys.venv = true → "--break-system-packages" ∉ e.pip) ∧
    (args.user = false ∨ sys.venv = true → "--user" ∉ e.pip) := by
  have key : ∀ l e0, ((sys.managed = false ∨ sys.venv = true → "--break-system-packages" ∉ e0.pip) ∧
        (args.user = false ∨ sys.venv = true → "--user" ∉ e0.pip)) → (s, e) ∈ (instScripts sys args ans ok e0 l).1 →
      (sys.managed = false ∨ sys.venv = true → "--break-system-packages" ∉ e.pip) ∧
      (args.user = false ∨ sys.venv = true → "--user" ∉ e.pip) := by
    intro l
    induction l with
    | nil => intro e0 _ h; cases h
    | cons x r ih =>
      intro e0 h0 h
      simp only [instScripts] at h
      split at h
      · cases h
      · rename_i hp
        have hp : x.present = true := by simpa using hp
        split at h
        · cases h
        · rename_i e' he
          have hr := (instCheck_some sys args ans hp he).2.2
          have h' : (sys.managed = false ∨ sys.venv = true → "--break-system-packages" ∉ e'.pip) ∧
              (args.user = false ∨ sys.venv = true → "--user" ∉ e'.pip) := by
            rw [hr]
            obtain ⟨ha, hb⟩ := h0
            constructor
            · intro hc
              rw [List.mem_append, not_or]
              refine ⟨ha hc, ?_⟩
              rcases hc with hc | hc
              · rw [hc]; cases args.user <;> cases x.pip && !sys.venv <;> simp
              · simp [hc]
            · intro hc
              rw [List.mem_append, not_or]
              refine ⟨hb hc, ?_⟩
              rcases hc with hc | hc
              · rw [hc]; cases sys.managed <;> cases x.pip && !sys.venv <;> simp
              · simp [hc]
          split at h
          · rcases List.mem_cons.mp h with h | h
            · cases h; exact h'
            · exact ih _ h' h
          · rcases List.mem_cons.mp h with h | h
            · cases h; exact h'
            · cases h
  unfold instRun at h
  split at h
  · cases h
  · split at h
    · cases h
    · rename_i e0 he
      refine key _ e0 ?_ h
      have : e0.pip = (instFlags args).pip := by
        unfold instSudo at he
        cases h1 : sys.root <;> cases h2 : sys.sudo <;> cases h3 : ans .noSudo <;> simp [h1, h2, h3] at he <;> rw [← he]
      rw [this]
      unfold instFlags
      cases args.quiet <;> cases args.verbose <;> simp

end

/-- **C152** (defect): a script that installs system packages is executed without `sudo` when a script before it installs Python libraries
in a virtual environment; executed alone, it would use `sudo`. -/
theorem C152_sudo_lost (n m : String) (ans : InstAsk → Bool) (ok : String → Bool) (h : ok n = true) :
    let sys : InstSys := { root := false, sudo := true, apt := true, pip := true, venv := true, managed := false }
    ((instRun sys {} ans ok [{ name := n, pip := true }, { name := m, apt := true }]).1.map (fun x => (x.1.name, x.2.sudo)) =
      [(n, false), (m, false)]) ∧
    ((instRun sys {} ans ok [{ name := m, apt := true }]).1.map (fun x => (x.1.name, x.2.sudo)) = [(m, true)]) := by
  simp only [instRun, instSudo, instScripts, instCheck, instFlags, h]
  cases ok m <;> simp

example : instRun { root := false, sudo := true, apt := true, pip := true, venv := false, managed := true } { yes := true, user := true }
    (fun _ => false) (fun _ => true) [{ name := "ubuntu", apt := true }, { name := "ansible", apt := true, pip := true }] =
    ([({ name := "ubuntu", apt := true }, { sudo := true }),
      ({ name := "ansible", apt := true, pip := true }, { sudo := false, pip := ["--break-system-packages", "--user"], user := true })], true) := by
  decide

end Netlab
