import Verif.Spec.LabRecovery
import Verif.Props.LabLock
/-!
# C117: completed and interrupted commands
-/

namespace Netlab

open Spec

theorem upd_upd {α β : Type} [DecidableEq α] (f : α → β) (a : α) (b c : β) : upd (upd f a b) a c = upd f a c := by
  funext x
  unfold upd
  split <;> rfl

/-- A command executed without interruption, without the states in which it is rewriting the status file -/
def seqRun (pid : Nat) (dir lab : String) (dry : Bool) : Bool → List Act → World → World
  | _, [], w => w
  | m, .change op :: r, w =>
    if (applyOp dry lab dir op w.file).2 then { w with file := (applyOp dry lab dir op w.file).1 }
    else seqRun pid dir lab dry m r { w with file := (applyOp dry lab dir op w.file).1 }
  | m, .checkExisting :: r, w => if w.locked dir then w else seqRun pid dir lab dry m r w
  | m, .unlockUser :: r, w =>
    if w.locked dir then seqRun pid dir lab dry m r { w with locked := upd w.locked dir false, file := (applyOp dry lab dir .logLine w.file).1 }
    else seqRun pid dir lab dry m r w
  | m, .checkWriteable :: r, w => if w.locked dir then w else seqRun pid dir lab dry m r w
  | m, .writeFiles :: r, w => seqRun pid dir lab dry m r { w with conf := upd w.conf dir (some pid) }
  | m, .checkInstance :: r, w => if instanceElsewhere lab dir w.file then w else seqRun pid dir lab dry m r w
  | m, .lockDir :: r, w => seqRun pid dir lab dry m r { w with locked := upd w.locked dir true }
  | m, .startWork :: r, w => seqRun pid dir lab dry m r { w with running := upd w.running dir (some lab) }
  | m, .touchLock :: r, w => seqRun pid dir lab dry m r w
  | _, .checkMismatch f c :: r, w =>
    match labDirMismatch lab dir f c w.file with
    | none => w
    | some m => seqRun pid dir lab dry m r w
  | m, .stopWork :: r, w => seqRun pid dir lab dry m r { w with running := upd w.running dir none }
  | m, .removeUnlessMismatch :: r, w => seqRun pid dir lab dry m r (if m then w else { w with file := popKey w.file lab })
  | m, .unlockDir :: r, w => seqRun pid dir lab dry m r { w with locked := upd w.locked dir false }

theorem labRun_append (w : World) (a b : List LabEvent) : labRun w (a ++ b) = labRun (labRun w a) b := by
  induction a generalizing w with
  | nil => rfl
  | cons e r ih => exact ih _

theorem run_step {w : World} {pid : Nat} {p : Proc} (h : w.procs pid = some p) (n : Nat) :
    labRun w (List.replicate (n + 1) (.run pid)) = labRun (stepProc w pid p) (List.replicate n (.run pid)) := by
  rw [List.replicate_succ]
  show labRun (labStep w (.run pid)) _ = _
  simp only [labStep, h]

theorem put_procs (w : World) (pid : Nat) (p : Proc) : (w.put pid p).procs pid = some p := upd_self _ _ _

/-- Five steps change the status file. -/
theorem change_steps {w : World} {pid : Nat} {p : Proc} {op : StatusOp} {rest : List Act} (h : w.procs pid = some p) (ha : p.acts = .change op :: rest)
    (hp : p.phase = .idle) (hf : w.flock = none) :
    labRun w (List.replicate 5 (.run pid)) =
      ({ w with file := (applyOp p.dry p.lab p.dir op w.file).1 }).put pid
        { p with acts := if (applyOp p.dry p.lab p.dir op w.file).2 then [] else rest, phase := .idle } := by
  rw [run_step h]
  have s1 : stepProc w pid p = { w with flock := some pid }.put pid { p with phase := .locked } := by
    unfold stepProc
    simp only [ha, stepChange, hp, hf, if_true]
  rw [s1, run_step (put_procs _ _ _)]
  have s2 : stepProc ({ w with flock := some pid }.put pid { p with phase := .locked }) pid { p with phase := .locked } =
      { w with flock := some pid }.put pid { p with phase := .loaded w.file } := by
    unfold stepProc
    simp only [ha, stepChange, World.put, upd_upd]
  rw [s2, run_step (put_procs _ _ _)]
  have s3 : stepProc ({ w with flock := some pid }.put pid { p with phase := .loaded w.file }) pid { p with phase := .loaded w.file } =
      { w with flock := some pid, file := [] }.put pid
        { p with phase := .truncated (applyOp p.dry p.lab p.dir op w.file).1 (applyOp p.dry p.lab p.dir op w.file).2 } := by
    unfold stepProc
    simp only [ha, stepChange, World.put, upd_upd]
  rw [s3, run_step (put_procs _ _ _)]
  have s4 : stepProc ({ w with flock := some pid, file := [] }.put pid
        { p with phase := .truncated (applyOp p.dry p.lab p.dir op w.file).1 (applyOp p.dry p.lab p.dir op w.file).2 }) pid
        { p with phase := .truncated (applyOp p.dry p.lab p.dir op w.file).1 (applyOp p.dry p.lab p.dir op w.file).2 } =
      { w with flock := some pid, file := (applyOp p.dry p.lab p.dir op w.file).1 }.put pid { p with phase := .written (applyOp p.dry p.lab p.dir op w.file).2 } := by
    unfold stepProc
    simp only [ha, stepChange, World.put, upd_upd]
  rw [s4, run_step (put_procs _ _ _)]
  show stepProc _ _ _ = _
  unfold stepProc
  simp only [ha, stepChange, World.put, upd_upd]
  rw [hf]

theorem seqRun_procs (pid : Nat) (dir lab : String) (dry : Bool) (f : Nat → Option Proc) (acts : List Act) (m : Bool) (w : World) :
    seqRun pid dir lab dry m acts { w with procs := f } = { seqRun pid dir lab dry m acts w with procs := f } := by
  induction acts generalizing m w with
  | nil => rfl
  | cons a r ih =>
    cases a with
    | change op =>
      simp only [seqRun]
      split
      · rfl
      · exact ih m { w with file := _ }
    | checkExisting => 
      simp only [seqRun]
      split
      · rfl
      · exact ih _ _
    | unlockUser =>
      simp only [seqRun]
      split
      · exact ih m { w with locked := _, file := _ }
      · exact ih _ _
    | checkWriteable => 
      simp only [seqRun]
      split
      · rfl
      · exact ih _ _
    | writeFiles => exact ih m { w with conf := _ }
    | checkInstance => 
      simp only [seqRun]
      split
      · rfl
      · exact ih _ _
    | lockDir => exact ih m { w with locked := _ }
    | startWork => exact ih m { w with running := _ }
    | touchLock => exact ih _ _
    | checkMismatch f' c =>
      simp only [seqRun]
      cases labDirMismatch lab dir f' c w.file with
      | none => rfl
      | some m => exact ih _ _
    | stopWork => exact ih m { w with running := _ }
    | removeUnlessMismatch =>
      simp only [seqRun]
      cases m with
      | true => exact ih _ _
      | false => exact ih false { w with file := _ }
    | unlockDir => exact ih m { w with locked := _ }

theorem seqRun_next (pid : Nat) (dir lab : String) (dry : Bool) (f : Nat) (acts : List Act) (m : Bool) (w : World) :
    seqRun pid dir lab dry m acts { w with next := f } = { seqRun pid dir lab dry m acts w with next := f } := by
  induction acts generalizing m w with
  | nil => rfl
  | cons a r ih =>
    cases a with
    | change op =>
      simp only [seqRun]
      split
      · rfl
      · exact ih m { w with file := _ }
    | checkExisting => 
      simp only [seqRun]
      split
      · rfl
      · exact ih _ _
    | unlockUser =>
      simp only [seqRun]
      split
      · exact ih m { w with locked := _, file := _ }
      · exact ih _ _
    | checkWriteable => 
      simp only [seqRun]
      split
      · rfl
      · exact ih _ _
    | writeFiles => exact ih m { w with conf := _ }
    | checkInstance => 
      simp only [seqRun]
      split
      · rfl
      · exact ih _ _
    | lockDir => exact ih m { w with locked := _ }
    | startWork => exact ih m { w with running := _ }
    | touchLock => exact ih _ _
    | checkMismatch f' c =>
      simp only [seqRun]
      cases labDirMismatch lab dir f' c w.file with
      | none => rfl
      | some m => exact ih _ _
    | stopWork => exact ih m { w with running := _ }
    | removeUnlessMismatch =>
      simp only [seqRun]
      cases m with
      | true => exact ih _ _
      | false => exact ih false { w with file := _ }
    | unlockDir => exact ih m { w with locked := _ }

/-- A command that is not interrupted -/
theorem seqRun_spec (pid : Nat) (dir lab : String) (dry m : Bool) (acts : List Act) (w : World) (h : w.procs pid = some ⟨dir, lab, dry, acts, .idle, m⟩)
    (hf : w.flock = none) :
    ∃ n, labRun w (List.replicate n (.run pid)) = { seqRun pid dir lab dry m acts w with procs := upd w.procs pid none } := by
  have kill : ∀ w : World, w.flock = none → w.kill pid = { w with procs := upd w.procs pid none } := by
    intro w hw
    unfold World.kill
    rw [hw]
    simp
  induction acts generalizing m w with
  | nil => exact ⟨1, by rw [run_step h]; exact kill w hf⟩
  | cons a r ih =>
    -- one step that changes the world and continues
    have go : ∀ (w1 : World) (m1 : Bool), w1.flock = none → stepProc w pid ⟨dir, lab, dry, a :: r, .idle, m⟩ = w1.put pid ⟨dir, lab, dry, r, .idle, m1⟩ →
        seqRun pid dir lab dry m (a :: r) w = seqRun pid dir lab dry m1 r w1 → w1.procs = w.procs →
        ∃ n, labRun w (List.replicate n (.run pid)) = { seqRun pid dir lab dry m (a :: r) w with procs := upd w.procs pid none } := by
      intro w1 m1 h1 h2 h3 h4
      obtain ⟨n, hn⟩ := ih m1 (w1.put pid ⟨dir, lab, dry, r, .idle, m1⟩) (put_procs _ _ _) h1
      refine ⟨n + 1, ?_⟩
      rw [run_step h, h2, hn, h3]
      unfold World.put
      rw [seqRun_procs, upd_upd, h4]
    have chg : ∀ (w0 : World) (op : StatusOp) (m : Bool), w0.procs pid = some ⟨dir, lab, dry, .change op :: r, .idle, m⟩ → w0.flock = none →
        (applyOp dry lab dir op w0.file).2 = false →
        ∃ n, labRun w0 (List.replicate n (.run pid)) =
          { seqRun pid dir lab dry m r { w0 with file := (applyOp dry lab dir op w0.file).1 } with procs := upd w0.procs pid none } := by
      intro w0 op m h0 hf0 hc
      have hs := change_steps h0 rfl rfl hf0
      simp only [hc, Bool.false_eq_true, if_false] at hs
      obtain ⟨n, hn⟩ := ih m _ (put_procs _ pid _) (show (World.put { w0 with file := (applyOp dry lab dir op w0.file).1 } pid ⟨dir, lab, dry, r, .idle, m⟩).flock = none from hf0)
      refine ⟨5 + n, ?_⟩
      rw [← List.replicate_append_replicate, labRun_append, hs, hn]
      unfold World.put
      rw [seqRun_procs, upd_upd]
    have stop : stepProc w pid ⟨dir, lab, dry, a :: r, .idle, m⟩ = w.kill pid → seqRun pid dir lab dry m (a :: r) w = w →
        ∃ n, labRun w (List.replicate n (.run pid)) = { seqRun pid dir lab dry m (a :: r) w with procs := upd w.procs pid none } := by
      intro h1 h2
      exact ⟨1, by rw [run_step h, h1, h2]; exact kill w hf⟩
    cases a with
    | change op =>
      cases hc : (applyOp dry lab dir op w.file).2 with
      | false =>
        obtain ⟨n, hn⟩ := chg w op m h hf hc
        exact ⟨n, by rw [hn]; simp only [seqRun, hc, Bool.false_eq_true, if_false]⟩
      | true =>
        have hs := change_steps h rfl rfl hf
        simp only [hc, if_true] at hs
        refine ⟨5 + 1, ?_⟩
        rw [← List.replicate_append_replicate, labRun_append, hs, run_step (put_procs _ _ _)]
        show World.kill _ pid = _
        refine (kill _ ?_).trans ?_
        · exact hf
        · simp only [World.put, upd_upd, seqRun, hc, if_true]
    | checkExisting =>
      cases hc : w.locked dir with
      | true => exact stop (by simp only [stepProc, hc, if_true]) (by simp only [seqRun, hc, if_true])
      | false => exact go w m hf (by simp only [stepProc, hc]; rfl) (by simp only [seqRun, hc]; rfl) rfl
    | unlockUser =>
      cases hc : w.locked dir with
      | true =>
        have s1 : stepProc w pid ⟨dir, lab, dry, .unlockUser :: r, .idle, m⟩ =
            { w with locked := upd w.locked dir false }.put pid ⟨dir, lab, dry, .change .logLine :: r, .idle, m⟩ := by
          simp only [stepProc, hc, if_true]
        obtain ⟨n, hn⟩ := chg ({ w with locked := upd w.locked dir false }.put pid ⟨dir, lab, dry, .change .logLine :: r, .idle, m⟩) .logLine m (put_procs _ _ _) hf rfl
        refine ⟨n + 1, ?_⟩
        rw [run_step h, s1, hn]
        simp only [seqRun, hc, if_true, World.put, upd_upd]
        exact congrArg (fun x : World => { x with procs := upd w.procs pid none })
          (seqRun_procs pid dir lab dry _ r m { w with locked := upd w.locked dir false, file := (applyOp dry lab dir .logLine w.file).1 })
      | false => exact go w m hf (by simp only [stepProc, hc]; rfl) (by simp only [seqRun, hc]; rfl) rfl
    | checkWriteable =>
      cases hc : w.locked dir with
      | true => exact stop (by simp only [stepProc, hc, if_true]) (by simp only [seqRun, hc, if_true])
      | false => exact go w m hf (by simp only [stepProc, hc]; rfl) (by simp only [seqRun, hc]; rfl) rfl
    | writeFiles => exact go { w with conf := upd w.conf dir (some pid) } m hf rfl rfl rfl
    | checkInstance =>
      cases hc : instanceElsewhere lab dir w.file with
      | true => exact stop (by simp only [stepProc, hc, if_true]) (by simp only [seqRun, hc, if_true])
      | false => exact go w m hf (by simp only [stepProc, hc]; rfl) (by simp only [seqRun, hc]; rfl) rfl
    | lockDir => exact go { w with locked := upd w.locked dir true } m hf rfl rfl rfl
    | startWork => exact go { w with running := upd w.running dir (some lab) } m hf rfl rfl rfl
    | touchLock => exact go w m hf rfl rfl rfl
    | checkMismatch f c =>
      cases hc : labDirMismatch lab dir f c w.file with
      | none => exact stop (by simp only [stepProc, hc]) (by simp only [seqRun, hc])
      | some m1 => exact go w m1 hf (by simp only [stepProc, hc]) (by simp only [seqRun, hc]) rfl
    | stopWork => exact go { w with running := upd w.running dir none } m hf rfl rfl rfl
    | removeUnlessMismatch =>
      cases m with
      | true => exact go w true hf rfl rfl rfl
      | false =>
        have s1 : stepProc w pid ⟨dir, lab, dry, .removeUnlessMismatch :: r, .idle, false⟩ = w.put pid ⟨dir, lab, dry, .change .remove :: r, .idle, false⟩ := rfl
        obtain ⟨n, hn⟩ := chg (w.put pid ⟨dir, lab, dry, .change .remove :: r, .idle, false⟩) .remove false (put_procs _ _ _) hf rfl
        refine ⟨n + 1, ?_⟩
        rw [run_step h, s1, hn]
        simp only [World.put, upd_upd]
        exact congrArg (fun x : World => { x with procs := upd w.procs pid none }) (seqRun_procs pid dir lab dry _ r false { w with file := popKey w.file lab })
    | unlockDir => exact go { w with locked := upd w.locked dir false } m hf rfl rfl rfl

theorem completes_spec (w : World) (c : Cmd) (dir lab : String) (hf : w.flock = none) :
    ∃ w', Completes w c dir lab w' ∧ w'.file = (seqRun w.next dir lab c.dry false c.acts w).file ∧ w'.locked = (seqRun w.next dir lab c.dry false c.acts w).locked ∧
      w'.running = (seqRun w.next dir lab c.dry false c.acts w).running ∧ w'.conf = (seqRun w.next dir lab c.dry false c.acts w).conf := by
  obtain ⟨n, hn⟩ := seqRun_spec w.next dir lab c.dry false c.acts (labStep w (.spawn c dir lab)) (upd_self _ _ _) hf
  have he : seqRun w.next dir lab c.dry false c.acts (labStep w (.spawn c dir lab)) =
      { seqRun w.next dir lab c.dry false c.acts { w with next := w.next + 1 } with procs := (labStep w (.spawn c dir lab)).procs } :=
    seqRun_procs w.next dir lab c.dry _ c.acts false { w with next := w.next + 1 }
  have hx := seqRun_next w.next dir lab c.dry (w.next + 1) c.acts false w
  refine ⟨_, ⟨n, rfl, ?_⟩, ?_, ?_, ?_, ?_⟩
  · rw [hn]; exact upd_self _ _ _
  all_goals rw [hn, he, hx]

theorem completes_unique {w : World} {c : Cmd} {dir lab : String} {a b : World} (ha : Completes w c dir lab a) (hb : Completes w c dir lab b) : a = b := by
  obtain ⟨n, rfl, hn⟩ := ha
  obtain ⟨k, rfl, hk⟩ := hb
  have stay : ∀ (v : World) (j : Nat), v.procs w.next = none → labRun v (List.replicate j (.run w.next)) = v := by
    intro v j hv
    induction j with
    | zero => rfl
    | succ j ih =>
      rw [List.replicate_succ]
      show labRun (labStep v (.run w.next)) _ = _
      simp only [labStep, hv]
      exact ih
  rcases Nat.le_total n k with h | h
  · obtain ⟨j, rfl⟩ := Nat.exists_eq_add_of_le h
    rw [← List.replicate_append_replicate, labRun_append, stay _ j hn]
  · obtain ⟨j, rfl⟩ := Nat.exists_eq_add_of_le h
    rw [← List.replicate_append_replicate, labRun_append, stay _ j hk]

theorem lookup_update (dry : Bool) (lab cwd l : String) (f : LabEntry → LabEntry) (st : LabTable) (h : l ≠ lab) :
    (labStatusUpdate dry lab cwd f st).lookup l = st.lookup l := by
  unfold labStatusUpdate
  cases dry with
  | true => rfl
  | false => simp only [Bool.false_eq_true, if_false, lookup_setKey, if_neg h]

theorem lookup_applyOp (dry : Bool) (lab cwd l : String) (op : StatusOp) (st : LabTable) (h : l ≠ lab) : (applyOp dry lab cwd op st).1.lookup l = st.lookup l := by
  have hu := fun f => lookup_update dry lab cwd l f st h
  cases op with
  | start name =>
    simp only [applyOp, labStatusStart]
    cases hl : st.lookup lab with
    | none => simp only [hu]
    | some e =>
      simp only
      split
      · simp only [hu]
      · simp only [hu]
  | status t => simp only [applyOp, hu]
  | provider t p => simp only [applyOp, hu]
  | logLine => simp only [applyOp, hu]
  | remove => simp only [applyOp, lookup_popKey, if_neg h]

theorem Spec.OnlyChanges.refl (w : World) (lab dir : String) : OnlyChanges w w lab dir := ⟨fun _ _ => rfl, fun _ _ => ⟨rfl, rfl, rfl⟩⟩

theorem Spec.OnlyChanges.trans {u v w : World} {lab dir : String} (h1 : OnlyChanges u v lab dir) (h2 : OnlyChanges v w lab dir) : OnlyChanges u w lab dir :=
  ⟨fun l hl => (h2.1 l hl).trans (h1.1 l hl), fun d hd =>
    ⟨(h2.2 d hd).1.trans (h1.2 d hd).1, (h2.2 d hd).2.1.trans (h1.2 d hd).2.1, (h2.2 d hd).2.2.trans (h1.2 d hd).2.2⟩⟩

theorem only_file (w : World) (lab dir : String) (f : LabTable) (h : ∀ l, l ≠ lab → f.lookup l = w.file.lookup l) : OnlyChanges w { w with file := f } lab dir :=
  ⟨h, fun _ _ => ⟨rfl, rfl, rfl⟩⟩

theorem only_lock (w : World) (lab dir : String) (b : Bool) : OnlyChanges w { w with locked := upd w.locked dir b } lab dir :=
  ⟨fun _ _ => rfl, fun _ hd => ⟨upd_ne _ _ hd, rfl, rfl⟩⟩

theorem only_run (w : World) (lab dir : String) (b : Option String) : OnlyChanges w { w with running := upd w.running dir b } lab dir :=
  ⟨fun _ _ => rfl, fun _ hd => ⟨rfl, upd_ne _ _ hd, rfl⟩⟩

theorem only_conf (w : World) (lab dir : String) (b : Option Nat) : OnlyChanges w { w with conf := upd w.conf dir b } lab dir :=
  ⟨fun _ _ => rfl, fun _ hd => ⟨rfl, rfl, upd_ne _ _ hd⟩⟩

theorem seqRun_only (pid : Nat) (dir lab : String) (dry : Bool) (acts : List Act) (m : Bool) (w : World) :
    OnlyChanges w (seqRun pid dir lab dry m acts w) lab dir := by
  induction acts generalizing m w with
  | nil => exact .refl _ _ _
  | cons a r ih =>
    cases a with
    | change op =>
      have h1 := only_file w lab dir (applyOp dry lab dir op w.file).1 (fun l hl => lookup_applyOp dry lab dir l op w.file hl)
      simp only [seqRun]
      split
      · exact h1
      · exact h1.trans (ih m _)
    | checkExisting =>
      simp only [seqRun]
      split
      · exact .refl _ _ _
      · exact ih _ _
    | unlockUser =>
      simp only [seqRun]
      split
      · exact (only_lock w lab dir false).trans ((only_file { w with locked := upd w.locked dir false } lab dir (applyOp dry lab dir .logLine w.file).1 (fun l hl => lookup_applyOp dry lab dir l .logLine w.file hl)).trans (ih m _))
      · exact ih _ _
    | checkWriteable =>
      simp only [seqRun]
      split
      · exact .refl _ _ _
      · exact ih _ _
    | writeFiles => exact (only_conf w lab dir _).trans (ih m _)
    | checkInstance =>
      simp only [seqRun]
      split
      · exact .refl _ _ _
      · exact ih _ _
    | lockDir => exact (only_lock w lab dir _).trans (ih m _)
    | startWork => exact (only_run w lab dir _).trans (ih m _)
    | touchLock => exact ih _ _
    | checkMismatch f' c =>
      simp only [seqRun]
      cases labDirMismatch lab dir f' c w.file with
      | none => exact .refl _ _ _
      | some m => exact ih _ _
    | stopWork => exact (only_run w lab dir _).trans (ih m _)
    | removeUnlessMismatch =>
      simp only [seqRun]
      cases m with
      | true => exact ih _ _
      | false => exact (only_file w lab dir (popKey w.file lab) (fun l hl => by rw [lookup_popKey, if_neg hl])).trans (ih false _)
    | unlockDir => exact (only_lock w lab dir _).trans (ih m _)

/-- **C117**: a command that is not interrupted ends, and changes only its own lab instance and its own directory. -/
theorem C117_isolation (w : World) (c : Cmd) (dir lab : String) (hf : w.flock = none) : ∃ w', Completes w c dir lab w' ∧ OnlyChanges w w' lab dir := by
  obtain ⟨w', h1, h2, h3, h4, h5⟩ := completes_spec w c dir lab hf
  have := seqRun_only w.next dir lab c.dry c.acts false w
  refine ⟨w', h1, ?_, ?_⟩
  · rw [h2]; exact this.1
  · rw [h3, h4, h5]; exact this.2

/-! ### netlab down -/

theorem status_acts (pid : Nat) (dir lab : String) (l : List Act) (hl : ∀ a ∈ l, ∃ t, a = .change (.status t)) (m : Bool) (r : List Act) (w : World) :
    ∃ f, seqRun pid dir lab false m (l ++ r) w = seqRun pid dir lab false m r { w with file := f } := by
  induction l generalizing w with
  | nil => exact ⟨w.file, rfl⟩
  | cons a l ih =>
    obtain ⟨t, rfl⟩ := hl a List.mem_cons_self
    obtain ⟨f, hf⟩ := ih (fun a ha => hl a (List.mem_cons_of_mem _ ha)) { w with file := (applyOp false lab dir (.status t) w.file).1 }
    exact ⟨f, by rw [List.cons_append]; simp only [seqRun]; exact hf⟩

theorem mismatch_false {w : World} {lab dir : String} (h : NotElsewhere w lab dir) (f c : Bool) : labDirMismatch lab dir f c w.file = some false := by
  unfold NotElsewhere owner at h
  unfold labDirMismatch
  cases hl : w.file.lookup lab with
  | none => rfl
  | some e =>
    rw [hl] at h
    simp only [Option.map_some, reduceCtorEq, Option.some.injEq, false_or] at h
    simp [h]

/-- **C117**: a completed `netlab down` removes the lab instance from the status file, stops the lab and unlocks the directory, whatever happened before. -/
theorem C117_down (w : World) (o : DownOpts) (dir lab : String) (hf : w.flock = none) (hd : o.dry = false) (hs : o.stopOk = true) (hn : NotElsewhere w lab dir) :
    ∃ w', Completes w (.down o) dir lab w' ∧ OnlyChanges w w' lab dir ∧ w'.file.lookup lab = none ∧ w'.locked dir = false ∧ w'.running dir = none := by
  obtain ⟨w', h1, h2, h3, h4, h5⟩ := completes_spec w (.down o) dir lab hf
  obtain ⟨v, hv1, hv2⟩ := C117_isolation w (.down o) dir lab hf
  have := completes_unique h1 hv1
  subst this
  refine ⟨w', h1, hv2, ?_⟩
  have hx : ∃ f, seqRun w.next dir lab (Cmd.down o).dry false (Cmd.down o).acts w =
      { w with file := popKey f lab, locked := upd w.locked dir false, running := upd w.running dir none } := by
    show ∃ f, seqRun w.next dir lab o.dry false (downActs o) w = _
    unfold downActs
    simp only [hd, hs, if_true, Bool.false_eq_true, if_false, seqRun, mismatch_false hn, applyOp]
    obtain ⟨f1, e1⟩ := status_acts w.next dir lab (if o.tools then [.change (.status "stopping external tools"), .change (.status "external tools stopped")] else [])
      (by
        intro a ha
        split at ha
        · rcases List.mem_cons.1 ha with rfl | ha
          · exact ⟨_, rfl⟩
          · rcases List.mem_cons.1 ha with rfl | ha
            · exact ⟨_, rfl⟩
            · cases ha
        · cases ha) false (stopActs o.providers ++ (.stopWork :: downEnd false))
      { w with file := labStatusUpdate false lab dir (fun e => { e with status := "lab shutdown requested" }) w.file }
    rw [List.append_assoc, e1]
    obtain ⟨f2, e2⟩ := status_acts w.next dir lab (stopActs o.providers) (stopActs_mem o.providers) false (.stopWork :: downEnd false) { w with file := f1 }
    rw [e2]
    exact ⟨f2, rfl⟩
  obtain ⟨f, hx⟩ := hx
  rw [h2, h3, h4, hx]
  exact ⟨by rw [lookup_popKey, if_pos rfl], upd_self _ _ _, upd_self _ _ _⟩

/-! ### netlab up -/

theorem elsewhere_false {w : World} {lab dir : String} (h : NotElsewhere w lab dir) : instanceElsewhere lab dir w.file = false := by
  unfold NotElsewhere owner at h
  unfold instanceElsewhere
  cases hl : w.file.lookup lab with
  | none => rfl
  | some e =>
    rw [hl] at h
    simp only [Option.map_some, reduceCtorEq, Option.some.injEq, false_or] at h
    simp [h]

theorem create_acts (pid : Nat) (dir lab : String) (dry u m : Bool) (n : Nat) (r : List Act) (w : World) (h : w.locked dir = false) :
    ∃ c, seqRun pid dir lab dry m (createActs u n ++ r) w = seqRun pid dir lab dry m r { w with conf := c } := by
  induction n generalizing r with
  | zero =>
    refine ⟨w.conf, ?_⟩
    cases u with
    | true => simp only [createActs, if_true, List.cons_append, List.nil_append, seqRun, h, Bool.false_eq_true, if_false]
    | false => rfl
  | succ n ih =>
    obtain ⟨c, hc⟩ := ih ([.checkWriteable, .writeFiles] ++ r)
    refine ⟨upd c dir (some pid), ?_⟩
    simp only [createActs, List.append_assoc]
    rw [hc]
    simp only [List.cons_append, List.nil_append, seqRun, h, Bool.false_eq_true, if_false]

theorem provider_acts (pid : Nat) (dir lab name : String) (m : Bool) (ps : List String) (r : List Act) (w : World) (acc : List String)
    (h : ∃ s, w.file.lookup lab = some ⟨dir, s, name, acc⟩) :
    ∃ f, seqRun pid dir lab false m (providersActs false ps ++ r) w =
      seqRun pid dir lab false m r { w with file := f, running := if ps = [] then w.running else upd w.running dir (some lab) } ∧
      ∃ s, f.lookup lab = some ⟨dir, s, name, acc ++ ps⟩ := by
  induction ps generalizing w acc with
  | nil => exact ⟨w.file, rfl, by simpa using h⟩
  | cons p ps ih =>
    obtain ⟨s, hs⟩ := h
    simp only [providersActs, providerActs, Bool.false_eq_true, if_false, List.cons_append, List.nil_append, seqRun, applyOp]
    obtain ⟨f, e1, e2⟩ := ih { w with
        file := labStatusUpdate false lab dir (fun e => { e with status := "workload started" })
          (labStatusUpdate false lab dir (fun e => { e with status := "starting provider", providers := e.providers ++ [p] }) w.file)
        running := upd w.running dir (some lab) } (acc ++ [p])
      ⟨"workload started", by
        simp only [labStatusUpdate, entryOrNew, Bool.false_eq_true, if_false, lookup_setKey, if_true, hs, Option.getD_some]⟩
    refine ⟨f, ?_, by simpa using e2⟩
    rw [e1]
    simp only [reduceCtorEq, if_false]
    split
    · rfl
    · simp only [upd_upd]

/-- **C117**: a completed `netlab up` starts the lab, locks the directory and records the lab instance with this directory, its name and its providers -- in an
unlocked directory, or with a snapshot in a directory in which the lab was interrupted. -/
theorem C117_up (w : World) (o : UpOpts) (dir lab : String) (hf : w.flock = none) (hd : o.dry = false) (ha : o.abort = false) (hp : o.providers ≠ [])
    (hl : o.snapshot = true ∨ w.locked dir = false) (hn : NotElsewhere w lab dir) :
    ∃ w', Completes w (.up o) dir lab w' ∧ OnlyChanges w w' lab dir ∧ w'.file.lookup lab = some ⟨dir, "started", o.name, o.providers⟩ ∧
      w'.locked dir = true ∧ w'.running dir = some lab := by
  obtain ⟨w', h1, h2, h3, h4, h5⟩ := completes_spec w (.up o) dir lab hf
  obtain ⟨v, hv1, hv2⟩ := C117_isolation w (.up o) dir lab hf
  have := completes_unique h1 hv1
  subst this
  refine ⟨w', h1, hv2, ?_⟩
  have hx : ∃ f c, seqRun w.next dir lab (Cmd.up o).dry false (Cmd.up o).acts w =
      { w with file := f, locked := upd w.locked dir true, running := upd w.running dir (some lab), conf := c } ∧
      f.lookup lab = some ⟨dir, "started", o.name, o.providers⟩ := by
    show ∃ f c, seqRun w.next dir lab o.dry false (upActs o) w = _ ∧ _
    -- from the check of lab instances to the end
    have tail : ∀ c0, ∃ f c, seqRun w.next dir lab false false ([.checkInstance] ++ ([.change (.start o.name)] ++ ([.lockDir] ++ (providersActs false o.providers ++
          ([.change (.status "deploying initial configuration"), .change (.status "initial configuration complete"), .change (.status "started")] ++ [.touchLock]))))) { w with conf := c0 } =
        { w with file := f, locked := upd w.locked dir true, running := upd w.running dir (some lab), conf := c } ∧
        f.lookup lab = some ⟨dir, "started", o.name, o.providers⟩ := by
      intro c0
      have hst : ∃ f0, applyOp false lab dir (.start o.name) w.file = (f0, false) ∧ ∃ s, f0.lookup lab = some ⟨dir, s, o.name, []⟩ := by
        unfold NotElsewhere owner at hn
        simp only [applyOp, labStatusStart]
        cases hlk : w.file.lookup lab with
        | none => exact ⟨_, rfl, "starting lab", by simp only [labStatusUpdate, entryOrNew, Bool.false_eq_true, if_false, lookup_setKey, if_true, hlk, Option.getD_none]⟩
        | some e =>
          rw [hlk] at hn
          simp only [Option.map_some, reduceCtorEq, Option.some.injEq, false_or] at hn
          simp only [hn, bne_self_eq_false, Bool.false_eq_true, if_false]
          exact ⟨_, rfl, "restarting lab", by simp only [labStatusUpdate, entryOrNew, Bool.false_eq_true, if_false, lookup_setKey, if_true, hlk, Option.getD_some, hn]⟩
      obtain ⟨f0, e0, s0, hs0⟩ := hst
      simp only [List.cons_append, List.nil_append, seqRun, elsewhere_false hn, Bool.false_eq_true, if_false, e0]
      obtain ⟨f1, e1, s1, hs1⟩ := provider_acts w.next dir lab o.name false o.providers
        (.change (.status "deploying initial configuration") :: .change (.status "initial configuration complete") :: .change (.status "started") :: [.touchLock])
        { w with conf := c0, file := f0, locked := upd w.locked dir true } [] ⟨s0, hs0⟩
      rw [e1]
      rw [if_neg hp]
      simp only [seqRun, applyOp, Bool.false_eq_true, if_false]
      refine ⟨_, _, rfl, ?_⟩
      simp only [labStatusUpdate, entryOrNew, Bool.false_eq_true, if_false, lookup_setKey, if_true, hs1, Option.getD_some, List.nil_append]
    unfold upActs
    simp only [hd, ha, Bool.or_false, Bool.false_eq_true, if_false, List.append_assoc]
    cases hsn : o.snapshot with
    | true =>
      simp only [if_true, List.nil_append]
      exact tail w.conf
    | false =>
      rw [hsn] at hl
      have hl' : w.locked dir = false := by simpa using hl
      simp only [Bool.false_eq_true, if_false, List.cons_append, List.nil_append, seqRun, hl']
      obtain ⟨c, hc⟩ := create_acts w.next dir lab false o.unlock false (o.outputs + 1) ([.checkInstance] ++ ([.change (.start o.name)] ++ ([.lockDir] ++ (providersActs false o.providers ++
          ([.change (.status "deploying initial configuration"), .change (.status "initial configuration complete"), .change (.status "started")] ++ [.touchLock]))))) w hl'
      obtain ⟨f, c', h, h'⟩ := tail c
      refine ⟨f, c', ?_, h'⟩
      rw [← h, ← hc]
      rfl
  obtain ⟨f, c, hx, hlk⟩ := hx
  rw [h2, h3, h4, hx]
  exact ⟨hlk, upd_self _ _ _, upd_self _ _ _⟩

/-! ### Interrupted commands -/

/-- The table has this lab only in this directory, and it has all other labs of the table `f0`. -/
def TableOk (f0 : LabTable) (lab dir : String) (st : LabTable) : Prop :=
  (∀ e, st.lookup lab = some e → e.dir = dir) ∧ ∀ l, l ≠ lab → st.lookup l = f0.lookup l

/-- Everything known about a command that was started in `w` and not interrupted yet -/
structure Partial (w : World) (lab dir : String) (v : World) : Prop where
  lock : v.flock = none ∨ v.flock = some w.next
  free : v.procs w.next = none → v.flock = none
  other : ∀ d, d ≠ dir → v.locked d = w.locked d ∧ v.running d = w.running d ∧ v.conf d = w.conf d
  file : ∀ e, v.file.lookup lab = some e → e.dir = dir
  keep : ¬ MidWrite v w.next → ∀ l, l ≠ lab → v.file.lookup l = w.file.lookup l
  proc : ∀ p, v.procs w.next = some p → p.dir = dir ∧ p.lab = lab ∧ (∀ st, (p.phase = .loaded st ∨ ∃ c, p.phase = .truncated st c) → TableOk w.file lab dir st) ∧
    (p.phase = .idle ∨ ∃ op r, p.acts = .change op :: r)

theorem dir_update (dry : Bool) (lab cwd : String) (f : LabEntry → LabEntry) (hf : ∀ e, (f e).dir = e.dir) (st : LabTable) (h : ∀ e, st.lookup lab = some e → e.dir = cwd) :
    ∀ e, (labStatusUpdate dry lab cwd f st).lookup lab = some e → e.dir = cwd := by
  intro e he
  unfold labStatusUpdate at he
  cases dry with
  | true => exact h e he
  | false =>
    simp only [Bool.false_eq_true, if_false, lookup_setKey, if_true, Option.some.injEq] at he
    rw [← he, hf]
    unfold entryOrNew
    cases hl : st.lookup lab with
    | none => rfl
    | some e' => exact h e' hl

theorem dir_applyOp (dry : Bool) (lab cwd : String) (op : StatusOp) (st : LabTable) (h : ∀ e, st.lookup lab = some e → e.dir = cwd) :
    ∀ e, (applyOp dry lab cwd op st).1.lookup lab = some e → e.dir = cwd := by
  have hu : ∀ f : LabEntry → LabEntry, (∀ e, (f e).dir = e.dir) → ∀ e, (labStatusUpdate dry lab cwd f st).lookup lab = some e → e.dir = cwd :=
    fun f hf => dir_update dry lab cwd f hf st h
  cases op with
  | start name =>
    simp only [applyOp, labStatusStart]
    cases hl : st.lookup lab with
    | none =>
      simp only
      refine hu _ ?_
      intro _; rfl
    | some e =>
      simp only
      split
      · dsimp only
        refine hu _ ?_
        intro _; rfl
      · dsimp only
        refine hu _ ?_
        intro _; rfl
  | status t =>
    simp only [applyOp]
    refine hu _ ?_
    intro _; rfl
  | provider t p =>
    simp only [applyOp]
    refine hu _ ?_
    intro _; rfl
  | logLine =>
    simp only [applyOp]
    refine hu _ ?_
    intro _; rfl
  | remove =>
    intro e he
    simp only [applyOp, lookup_popKey, if_true] at he
    cases he

theorem midWrite_put (v : World) (pid : Nat) (p : Proc) : MidWrite (v.put pid p) pid ↔ ∃ st c, p.phase = .truncated st c := by
  unfold MidWrite
  rw [put_procs]
  constructor
  · rintro ⟨q, st, c, h, h'⟩
    cases h
    exact ⟨st, c, h'⟩
  · rintro ⟨st, c, h⟩
    exact ⟨p, st, c, rfl, h⟩

theorem partial_step {w v : World} {lab dir : String} (h : Partial w lab dir v) : Partial w lab dir (labStep v (.run w.next)) := by
  simp only [labStep]
  cases hp : v.procs w.next with
  | none => exact h
  | some p =>
    simp only
    obtain ⟨pd, pl, pt, pa⟩ := h.proc p hp
    have hkeep : (∀ st c, p.phase ≠ .truncated st c) → ∀ l, l ≠ lab → v.file.lookup l = w.file.lookup l := by
      intro hm
      refine h.keep ?_
      rintro ⟨q, st, c, hq, hq'⟩
      rw [hp] at hq
      cases hq
      exact hm st c hq'
    -- the process ends
    have kill : p.phase = .idle → Partial w lab dir (v.kill w.next) := by
      intro hi
      refine ⟨?_, ?_, h.other, h.file, fun _ => hkeep (fun st c hc => by rw [hi] at hc; cases hc), ?_⟩
      · simp only [World.kill]
        rcases h.lock with hl | hl
        · left; simp [hl]
        · left; simp [hl]
      · intro _
        simp only [World.kill]
        rcases h.lock with hl | hl
        · simp [hl]
        · simp [hl]
      · intro p hp'
        simp only [World.kill, upd_self] at hp'
        cases hp'
    -- the process continues
    have cont : ∀ (v1 : World) (p1 : Proc), p.phase = .idle → v1.flock = v.flock → v1.file = v.file →
        (∀ d, d ≠ dir → v1.locked d = v.locked d ∧ v1.running d = v.running d ∧ v1.conf d = v.conf d) →
        p1.dir = p.dir → p1.lab = p.lab → p1.phase = p.phase → Partial w lab dir (v1.put w.next p1) := by
      intro v1 p1 hi e1 e2 e3 e4 e5 e6
      refine ⟨?_, ?_, ?_, ?_, ?_, ?_⟩
      · show v1.flock = none ∨ v1.flock = some w.next
        rw [e1]; exact h.lock
      · intro hx
        rw [put_procs] at hx
        cases hx
      · intro d hd
        obtain ⟨a1, a2, a3⟩ := e3 d hd
        obtain ⟨b1, b2, b3⟩ := h.other d hd
        exact ⟨a1.trans b1, a2.trans b2, a3.trans b3⟩
      · show ∀ e, v1.file.lookup lab = some e → e.dir = dir
        rw [e2]; exact h.file
      · intro _
        show ∀ l, l ≠ lab → v1.file.lookup l = w.file.lookup l
        rw [e2]
        exact hkeep (fun st c hc => by rw [hi] at hc; cases hc)
      · intro q hq
        rw [put_procs] at hq
        cases hq
        refine ⟨e4.trans pd, e5.trans pl, ?_, Or.inl (e6.trans hi)⟩
        rw [e6, hi]
        rintro st (hc | ⟨_, hc⟩) <;> cases hc
    have nochange : (∀ op r, p.acts ≠ .change op :: r) → p.phase = .idle := by
      intro hn
      rcases pa with hi | ⟨op, r, hc⟩
      · exact hi
      · exact absurd hc (hn op r)
    have same : ∀ d, d ≠ dir → v.locked d = v.locked d ∧ v.running d = v.running d ∧ v.conf d = v.conf d := fun _ _ => ⟨rfl, rfl, rfl⟩
    have hlk : ∀ b, ∀ d, d ≠ dir → upd v.locked p.dir b d = v.locked d ∧ v.running d = v.running d ∧ v.conf d = v.conf d :=
      fun b d hd => ⟨upd_ne _ _ (by rw [pd]; exact hd), rfl, rfl⟩
    have hrn : ∀ b, ∀ d, d ≠ dir → v.locked d = v.locked d ∧ upd v.running p.dir b d = v.running d ∧ v.conf d = v.conf d :=
      fun b d hd => ⟨rfl, upd_ne _ _ (by rw [pd]; exact hd), rfl⟩
    have hcf : ∀ b, ∀ d, d ≠ dir → v.locked d = v.locked d ∧ v.running d = v.running d ∧ upd v.conf p.dir b d = v.conf d :=
      fun b d hd => ⟨rfl, rfl, upd_ne _ _ (by rw [pd]; exact hd)⟩
    unfold stepProc
    cases hacts : p.acts with
    | nil => exact kill (nochange (by rw [hacts]; intro _ _ hx; cases hx))
    | cons a r =>
      cases a with
      | change op =>
        simp only
        unfold stepChange
        cases hph : p.phase with
        | idle =>
          simp only
          by_cases hfl : v.flock = none
          · rw [if_pos hfl]
            refine ⟨Or.inr rfl, ?_, h.other, h.file, fun _ => hkeep (fun st c hc => by rw [hph] at hc; cases hc), ?_⟩
            · intro hx
              rw [put_procs] at hx
              cases hx
            · intro q hq
              rw [put_procs] at hq
              cases hq
              exact ⟨pd, pl, (by rintro st (hc | ⟨_, hc⟩) <;> cases hc), Or.inr ⟨op, r, hacts⟩⟩
          · rw [if_neg hfl]
            exact h
        | locked =>
          simp only
          refine ⟨h.lock, ?_, h.other, h.file, fun _ => hkeep (fun st c hc => by rw [hph] at hc; cases hc), ?_⟩
          · intro hx
            rw [put_procs] at hx
            cases hx
          · intro q hq
            rw [put_procs] at hq
            cases hq
            refine ⟨pd, pl, ?_, Or.inr ⟨op, r, hacts⟩⟩
            rintro st (hc | ⟨_, hc⟩)
            · cases hc
              exact ⟨h.file, hkeep (fun st c hc => by rw [hph] at hc; cases hc)⟩
            · cases hc
        | loaded st =>
          simp only
          have ht := pt st (Or.inl hph)
          refine ⟨h.lock, ?_, h.other, ?_, ?_, ?_⟩
          · intro hx
            rw [put_procs] at hx
            cases hx
          · intro e he
            cases he
          · intro hm
            rw [midWrite_put] at hm
            exact absurd ⟨_, _, rfl⟩ hm
          · intro q hq
            rw [put_procs] at hq
            cases hq
            refine ⟨pd, pl, ?_, Or.inr ⟨op, r, hacts⟩⟩
            rintro st' (hc | ⟨_, hc⟩)
            · cases hc
            · cases hc
              rw [pd, pl]
              exact ⟨dir_applyOp p.dry lab dir op st ht.1, fun l hl => (lookup_applyOp p.dry lab dir l op st hl).trans (ht.2 l hl)⟩
        | truncated st c =>
          simp only
          have ht := pt st (Or.inr ⟨c, hph⟩)
          refine ⟨h.lock, ?_, h.other, ht.1, fun _ => ht.2, ?_⟩
          · intro hx
            rw [put_procs] at hx
            cases hx
          · intro q hq
            rw [put_procs] at hq
            cases hq
            exact ⟨pd, pl, (by rintro st (hc | ⟨_, hc⟩) <;> cases hc), Or.inr ⟨op, r, hacts⟩⟩
        | written c =>
          simp only
          refine ⟨Or.inl rfl, fun _ => rfl, h.other, h.file, fun _ => hkeep (fun st c hc => by rw [hph] at hc; cases hc), ?_⟩
          intro q hq
          rw [put_procs] at hq
          cases hq
          exact ⟨pd, pl, (by rintro st (hc | ⟨_, hc⟩) <;> cases hc), Or.inl rfl⟩
      | checkExisting =>
        have hi := nochange (by rw [hacts]; intro _ _ hx; cases hx)
        simp only
        split
        · exact kill hi
        · exact cont v _ hi rfl rfl same rfl rfl rfl
      | unlockUser =>
        have hi := nochange (by rw [hacts]; intro _ _ hx; cases hx)
        simp only
        split
        · exact cont { v with locked := upd v.locked p.dir false } _ hi rfl rfl (hlk false) rfl rfl rfl
        · exact cont v _ hi rfl rfl same rfl rfl rfl
      | checkWriteable =>
        have hi := nochange (by rw [hacts]; intro _ _ hx; cases hx)
        simp only
        split
        · exact kill hi
        · exact cont v _ hi rfl rfl same rfl rfl rfl
      | writeFiles =>
        have hi := nochange (by rw [hacts]; intro _ _ hx; cases hx)
        exact cont { v with conf := upd v.conf p.dir (some w.next) } _ hi rfl rfl (hcf _) rfl rfl rfl
      | checkInstance =>
        have hi := nochange (by rw [hacts]; intro _ _ hx; cases hx)
        simp only
        split
        · exact kill hi
        · exact cont v _ hi rfl rfl same rfl rfl rfl
      | lockDir =>
        have hi := nochange (by rw [hacts]; intro _ _ hx; cases hx)
        exact cont { v with locked := upd v.locked p.dir true } _ hi rfl rfl (hlk true) rfl rfl rfl
      | startWork =>
        have hi := nochange (by rw [hacts]; intro _ _ hx; cases hx)
        exact cont { v with running := upd v.running p.dir (some p.lab) } _ hi rfl rfl (hrn _) rfl rfl rfl
      | touchLock =>
        have hi := nochange (by rw [hacts]; intro _ _ hx; cases hx)
        exact cont v _ hi rfl rfl same rfl rfl rfl
      | checkMismatch f c =>
        have hi := nochange (by rw [hacts]; intro _ _ hx; cases hx)
        simp only
        cases labDirMismatch p.lab p.dir f c v.file with
        | none => exact kill hi
        | some m => exact cont v _ hi rfl rfl same rfl rfl rfl
      | stopWork =>
        have hi := nochange (by rw [hacts]; intro _ _ hx; cases hx)
        exact cont { v with running := upd v.running p.dir none } _ hi rfl rfl (hrn _) rfl rfl rfl
      | removeUnlessMismatch =>
        have hi := nochange (by rw [hacts]; intro _ _ hx; cases hx)
        exact cont v _ hi rfl rfl same rfl rfl rfl
      | unlockDir =>
        have hi := nochange (by rw [hacts]; intro _ _ hx; cases hx)
        exact cont { v with locked := upd v.locked p.dir false } _ hi rfl rfl (hlk false) rfl rfl rfl

theorem partial_run (w : World) (c : Cmd) (dir lab : String) (hf : w.flock = none) (hn : NotElsewhere w lab dir) (k : Nat) :
    Partial w lab dir (labRun (labStep w (.spawn c dir lab)) (List.replicate k (.run w.next))) := by
  have h0 : Partial w lab dir (labStep w (.spawn c dir lab)) := by
    refine ⟨Or.inl hf, fun _ => hf, fun _ _ => ⟨rfl, rfl, rfl⟩, ?_, fun _ _ _ => rfl, ?_⟩
    · intro e he
      have he' : w.file.lookup lab = some e := he
      unfold NotElsewhere owner at hn
      rw [he'] at hn
      simpa using hn
    · intro p hp
      have : (some ⟨dir, lab, c.dry, c.acts, .idle, false⟩ : Option Proc) = some p := by rw [← hp]; exact (upd_self _ _ _).symm
      cases this
      exact ⟨rfl, rfl, (by rintro st (h | ⟨_, h⟩) <;> cases h), Or.inl rfl⟩
  generalize labStep w (.spawn c dir lab) = v at h0
  induction k generalizing v with
  | zero => exact h0
  | succ k ih =>
    rw [List.replicate_succ]
    exact ih _ (partial_step h0)

theorem partial_crash {w v : World} {lab dir : String} (h : Partial w lab dir v) :
    (labStep v (.crash w.next)).flock = none ∧ NotElsewhere (labStep v (.crash w.next)) lab dir ∧
    (∀ d, d ≠ dir → (labStep v (.crash w.next)).locked d = w.locked d ∧ (labStep v (.crash w.next)).running d = w.running d ∧ (labStep v (.crash w.next)).conf d = w.conf d) ∧
    (labStep v (.crash w.next)).file = v.file := by
  have hne : ∀ x : World, x.file = v.file → NotElsewhere x lab dir := by
    intro x hx
    unfold NotElsewhere owner
    rw [hx]
    cases hl : v.file.lookup lab with
    | none => exact Or.inl rfl
    | some e => right; rw [← h.file e hl]; rfl
  simp only [labStep]
  cases hp : v.procs w.next with
  | none => exact ⟨h.free hp, hne _ rfl, h.other, rfl⟩
  | some p =>
    refine ⟨?_, hne _ rfl, h.other, rfl⟩
    simp only [World.kill]
    rcases h.lock with hl | hl
    · simp [hl]
    · simp [hl]

/-- **C117**: a command (`netlab up` or any other) interrupted after any number of steps can be cleaned up with `netlab down` in the same directory: the lab is
stopped, the directory is unlocked, the lab instance is forgotten, and other directories are not affected.  Other lab instances stay in the status file, unless the
command was interrupted while it was writing the file. -/
theorem C117_recovery (w : World) (c : Cmd) (o : DownOpts) (dir lab : String) (k : Nat) (hf : w.flock = none) (hn : NotElsewhere w lab dir)
    (hd : o.dry = false) (hs : o.stopOk = true) :
    ∃ w', Completes (interrupted w c dir lab k) (.down o) dir lab w' ∧
      w'.file.lookup lab = none ∧ w'.locked dir = false ∧ w'.running dir = none ∧
      (∀ d, d ≠ dir → w'.locked d = w.locked d ∧ w'.running d = w.running d ∧ w'.conf d = w.conf d) ∧
      (¬ MidWrite (labRun (labStep w (.spawn c dir lab)) (List.replicate k (.run w.next))) w.next → ∀ l, l ≠ lab → w'.file.lookup l = w.file.lookup l) := by
  have hp := partial_run w c dir lab hf hn k
  obtain ⟨c1, c2, c3, c4⟩ := partial_crash hp
  obtain ⟨w', d1, d2, d3, d4, d5⟩ := C117_down (interrupted w c dir lab k) o dir lab c1 hd hs c2
  refine ⟨w', d1, d3, d4, d5, ?_, ?_⟩
  · intro d hne
    obtain ⟨a1, a2, a3⟩ := d2.2 d hne
    obtain ⟨b1, b2, b3⟩ := c3 d hne
    exact ⟨a1.trans b1, a2.trans b2, a3.trans b3⟩
  · intro hm l hl
    rw [d2.1 l hl]
    show (labStep _ (.crash w.next)).file.lookup l = _
    rw [c4]
    exact hp.keep hm l hl

/-- **C117**: an interrupted command can be followed by `netlab up --snapshot` in the same directory, which starts the lab and records it. -/
theorem C117_restart (w : World) (c : Cmd) (o : UpOpts) (dir lab : String) (k : Nat) (hf : w.flock = none) (hn : NotElsewhere w lab dir)
    (hd : o.dry = false) (ha : o.abort = false) (hp : o.providers ≠ []) (hs : o.snapshot = true) :
    ∃ w', Completes (interrupted w c dir lab k) (.up o) dir lab w' ∧ w'.file.lookup lab = some ⟨dir, "started", o.name, o.providers⟩ ∧
      w'.locked dir = true ∧ w'.running dir = some lab := by
  obtain ⟨c1, c2, _⟩ := partial_crash (partial_run w c dir lab hf hn k)
  obtain ⟨w', d1, _, d3⟩ := C117_up (interrupted w c dir lab k) o dir lab c1 hd ha hp (Or.inl hs) c2
  exact ⟨w', d1, d3⟩

/-- **C117**: after any history of commands (completed or interrupted anywhere) in any directories, when nothing is being executed, `netlab down` cleans up the directory
if the lab instance is not used in another one. -/
theorem C117_after_history (h : List LabEvent) (hr : ∀ e ∈ h, ¬ IsReset e) (hq : ∀ pid, (labRun .init h).procs pid = none) (o : DownOpts) (dir lab : String)
    (hd : o.dry = false) (hs : o.stopOk = true) (hn : NotElsewhere (labRun .init h) lab dir) :
    ∃ w', Completes (labRun .init h) (.down o) dir lab w' ∧ OnlyChanges (labRun .init h) w' lab dir ∧
      w'.file.lookup lab = none ∧ w'.locked dir = false ∧ w'.running dir = none := by
  have hi := labInv_run h .init labInv_init hr
  refine C117_down _ o dir lab ?_ hd hs hn
  cases hf : (labRun .init h).flock with
  | none => rfl
  | some pid =>
    obtain ⟨p, hp, _⟩ := hi.holder pid hf
    rw [hq pid] at hp
    cases hp

theorem completes_flock {w : World} {c : Cmd} {dir lab : String} {w' : World} (hf : w.flock = none) (hn : NotElsewhere w lab dir) (h : Completes w c dir lab w') :
    w'.flock = none ∧ w'.next = w.next + 1 := by
  obtain ⟨n, rfl, hp⟩ := h
  refine ⟨(partial_run w c dir lab hf hn n).free hp, ?_⟩
  have next_step : ∀ v : World, (labStep v (.run w.next)).next = v.next := by
    intro v
    simp only [labStep]
    cases v.procs w.next with
    | none => rfl
    | some p =>
      simp only
      unfold stepProc
      cases p.acts with
      | nil => rfl
      | cons a r =>
        cases a <;> simp only
        case change op =>
          unfold stepChange
          cases p.phase <;> simp only
          case idle => split <;> rfl
          all_goals rfl
        case checkExisting => split <;> rfl
        case unlockUser => split <;> rfl
        case checkWriteable => split <;> rfl
        case checkInstance => split <;> rfl
        case checkMismatch f c => cases labDirMismatch p.lab p.dir f c v.file <;> rfl
        all_goals rfl
  have : ∀ (n : Nat) (v : World), (labRun v (List.replicate n (.run w.next))).next = v.next := by
    intro n
    induction n with
    | zero => intro v; rfl
    | succ n ih =>
      intro v
      rw [List.replicate_succ]
      exact (ih _).trans (next_step v)
  exact this n _

/-- **C117**: `netlab up` followed by `netlab down` leaves no traces in the status file, lock files and workloads: everything is as it was when the directory was
not locked and the lab was not started. -/
theorem C117_roundtrip (w : World) (u : UpOpts) (o : DownOpts) (dir lab : String) (hf : w.flock = none) (hl : w.locked dir = false) (hr : w.running dir = none)
    (hn : w.file.lookup lab = none) (hu : u.dry = false ∧ u.abort = false ∧ u.providers ≠ []) (hd : o.dry = false ∧ o.stopOk = true) :
    ∃ v w', Completes w (.up u) dir lab v ∧ v.running dir = some lab ∧ Completes v (.down o) dir lab w' ∧
      (∀ l, w'.file.lookup l = w.file.lookup l) ∧ w'.locked = w.locked ∧ w'.running = w.running := by
  have hne : NotElsewhere w lab dir := by
    left
    unfold owner
    rw [hn]
    rfl
  obtain ⟨v, a1, a2, a3, a4, a5⟩ := C117_up w u dir lab hf hu.1 hu.2.1 hu.2.2 (Or.inr hl) hne
  have hv := (completes_flock hf hne a1).1
  obtain ⟨w', b1, b2, b3, b4, b5⟩ := C117_down v o dir lab hv hd.1 hd.2 (by right; unfold owner; rw [a3]; rfl)
  refine ⟨v, w', a1, a5, b1, ?_, ?_, ?_⟩
  · intro l
    by_cases h : l = lab
    · rw [h, b3, hn]
    · rw [b2.1 l h, a2.1 l h]
  · funext d
    by_cases h : d = dir
    · rw [h, b4, hl]
    · rw [(b2.2 d h).1, (a2.2 d h).1]
  · funext d
    by_cases h : d = dir
    · rw [h, b5, hr]
    · rw [(b2.2 d h).2.1, (a2.2 d h).2.1]

/-- C117 defect: `netlab down --force` forgets the lab and unlocks the directory although the lab could not be stopped. -/
theorem C117_force (w : World) (o : DownOpts) (dir lab : String) (hf : w.flock = none) (hd : o.dry = false) (hs : o.stopOk = false) (h1 : o.force1 = true)
    (hn : NotElsewhere w lab dir) (hr : w.running dir = some lab) :
    ∃ w', Completes w (.down o) dir lab w' ∧ w'.file.lookup lab = none ∧ w'.locked dir = false ∧ w'.running dir = some lab := by
  obtain ⟨w', c1, c2, c3, c4, c5⟩ := completes_spec w (.down o) dir lab hf
  refine ⟨w', c1, ?_⟩
  have hx : ∃ f, seqRun w.next dir lab (Cmd.down o).dry false (Cmd.down o).acts w = { w with file := popKey f lab, locked := upd w.locked dir false } := by
    show ∃ f, seqRun w.next dir lab o.dry false (downActs o) w = _
    unfold downActs
    simp only [hd, hs, h1, if_true, Bool.false_eq_true, if_false, seqRun, mismatch_false hn, applyOp]
    obtain ⟨f1, e1⟩ := status_acts w.next dir lab (if o.tools then [.change (.status "stopping external tools"), .change (.status "external tools stopped")] else [])
      (by
        intro a ha
        split at ha
        · rcases List.mem_cons.1 ha with rfl | ha
          · exact ⟨_, rfl⟩
          · rcases List.mem_cons.1 ha with rfl | ha
            · exact ⟨_, rfl⟩
            · cases ha
        · cases ha) false (stopActs o.providers ++ downEnd false)
      { w with file := labStatusUpdate false lab dir (fun e => { e with status := "lab shutdown requested" }) w.file }
    rw [List.append_assoc, e1]
    obtain ⟨f2, e2⟩ := status_acts w.next dir lab (stopActs o.providers) (stopActs_mem o.providers) false (downEnd false) { w with file := f1 }
    rw [e2]
    exact ⟨f2, rfl⟩
  obtain ⟨f, hx⟩ := hx
  rw [c2, c3, c4, hx]
  exact ⟨by rw [lookup_popKey, if_pos rfl], upd_self _ _ _, hr⟩

/-- `netlab up` interrupted in the middle of the lab start, with another lab running in another directory -/
def lrWorld : World := labRun .init ([.spawn upCmd "/a" "x"] ++ finish 0)

example : lrWorld.flock = none ∧ lrWorld.running "/a" = some "x" ∧ NotElsewhere lrWorld "y" "/b" := by
  refine ⟨by decide +kernel, by decide +kernel, Or.inl ?_⟩
  decide +kernel

example : (interrupted lrWorld upCmd "/b" "y" 27).running "/b" = some "y" ∧ (interrupted lrWorld upCmd "/b" "y" 27).locked "/b" = true ∧
    owner (interrupted lrWorld upCmd "/b" "y" 27).file "y" = some "/b" ∧ owner (interrupted lrWorld upCmd "/b" "y" 27).file "x" = some "/a" := by
  refine ⟨?_, ?_, ?_, ?_⟩ <;> decide +kernel

end Netlab
