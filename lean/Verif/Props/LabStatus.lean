import Verif.Spec.LabStatus
import Verif.Lemmas.Box

namespace Netlab

open Netlab.Spec

theorem upd_self {α β : Type} [DecidableEq α] (f : α → β) (a : α) (b : β) : upd f a b a = b := by
  simp [upd]

theorem upd_ne {α β : Type} [DecidableEq α] (f : α → β) {a x : α} (b : β) (h : x ≠ a) :
    upd f a b x = f x := by
  simp [upd, h]

/-- What the status file contains, or will contain when the current writer is done. -/
def recorded (w : World) : LabTable :=
  match w.flock with
  | none => w.file
  | some pid =>
    match w.procs pid with
    | none => w.file
    | some p =>
      match p.phase with
      | .truncated st _ => st
      | _ => w.file

theorem recorded_free {w : World} (h : w.flock = none) : recorded w = w.file := by
  simp [recorded, h]

/-- State of one process. -/
structure ProcOk (w : World) (pid : Nat) (p : Proc) : Prop where
  holds : p.phase ≠ .idle → w.flock = some pid
  fresh : ∀ st, p.phase = .loaded st → st = w.file
  busy : p.phase ≠ .idle → ∃ op rest, p.acts = .change op :: rest
  empty : ∀ st c, p.phase = .truncated st c → w.file = []

/-- The file lock protects the status file. -/
structure LabInv (w : World) : Prop where
  proc : ∀ pid p, w.procs pid = some p → ProcOk w pid p
  holder : ∀ pid, w.flock = some pid → ∃ p, w.procs pid = some p ∧ p.phase ≠ .idle
  fresh : ∀ pid, w.next ≤ pid → w.procs pid = none

theorem recorded_holder {w : World} {pid : Nat} {p : Proc} (hf : w.flock = some pid)
    (hp : w.procs pid = some p) (hn : ∀ st c, p.phase ≠ .truncated st c) : recorded w = w.file := by
  unfold recorded
  rw [hf]
  simp only [hp]

theorem recorded_trunc {w : World} {pid : Nat} {p : Proc} {st : LabTable} {c : Bool} (hf : w.flock = some pid)
    (hp : w.procs pid = some p) (hn : p.phase = .truncated st c) : recorded w = st := by
  unfold recorded
  rw [hf]
  simp only [hp, hn]

/-- `recorded` looks at the status file, the lock and the process holding it only. -/
theorem recorded_congr {w v : World} (hfile : v.file = w.file) (hfl : v.flock = w.flock)
    (hp : ∀ pid, w.flock = some pid → v.procs pid = w.procs pid) : recorded v = recorded w := by
  unfold recorded
  rw [hfl]
  cases hf : w.flock with
  | none => exact hfile
  | some pid =>
    simp only [hp pid hf]
    cases w.procs pid with
    | none => exact hfile
    | some p =>
      cases hph : p.phase <;> simp only [hph, hfile]

/-- A step of an idle process that does not touch the status file. -/
theorem LabInv.quiet {w v : World} {pid : Nat} {p q : Proc} (hi : LabInv w) (hp : w.procs pid = some p)
    (hidle : p.phase = .idle) (hq : q.phase = .idle) (hfile : v.file = w.file) (hfl : v.flock = w.flock)
    (hnext : v.next = w.next) (hpr : v.procs = upd w.procs pid (some q)) :
    LabInv v ∧ recorded v = recorded w := by
  have hne : w.flock ≠ some pid := by
    intro hc
    obtain ⟨p', hp', hn⟩ := hi.holder pid hc
    rw [hp] at hp'
    obtain rfl := Option.some.inj hp'
    exact hn hidle
  refine ⟨⟨?_, ?_, ?_⟩, ?_⟩
  · intro k r hr
    rw [hpr] at hr
    by_cases hk : k = pid
    · subst hk
      rw [upd_self] at hr
      obtain rfl := Option.some.inj hr
      exact ⟨fun h => absurd hq h, fun st h => by rw [hq] at h; exact absurd h (by simp), fun h => absurd hq h,
        fun st c h => by rw [hq] at h; exact absurd h (by simp)⟩
    · rw [upd_ne _ _ hk] at hr
      have := hi.proc k r hr
      exact ⟨fun h => by rw [hfl]; exact this.holds h, fun st h => by rw [hfile]; exact this.fresh st h, this.busy,
        fun st c h => by rw [hfile]; exact this.empty st c h⟩
  · intro k hk
    rw [hfl] at hk
    have hkp : k ≠ pid := fun h => hne (h ▸ hk)
    rw [hpr, upd_ne _ _ hkp]
    exact hi.holder k hk
  · intro k hk
    rw [hnext] at hk
    have hkp : k ≠ pid := by
      intro h
      have := hi.fresh k hk
      rw [h, hp] at this
      exact absurd this (by simp)
    rw [hpr, upd_ne _ _ hkp]
    exact hi.fresh k hk
  · refine recorded_congr hfile hfl ?_
    intro k hk
    have hkp : k ≠ pid := fun h => hne (h ▸ hk)
    rw [hpr, upd_ne _ _ hkp]

/-- A process ends. -/
theorem LabInv.kill {w : World} {pid : Nat} {p : Proc} (hi : LabInv w) (hp : w.procs pid = some p) :
    LabInv (w.kill pid) := by
  refine ⟨?_, ?_, ?_⟩
  · intro k r hr
    simp only [World.kill] at hr
    by_cases hk : k = pid
    · subst hk
      rw [upd_self] at hr
      exact absurd hr (by simp)
    · rw [upd_ne _ _ hk] at hr
      have := hi.proc k r hr
      refine ⟨fun h => ?_, fun st h => this.fresh st h, this.busy, fun st c h => this.empty st c h⟩
      have hf := this.holds h
      have hne : w.flock ≠ some pid := by
        rw [hf]
        intro h
        exact hk (Option.some.inj h)
      simp only [World.kill, if_neg hne]
      exact hf
  · intro k hk
    simp only [World.kill] at hk ⊢
    by_cases hf : w.flock = some pid
    · rw [if_pos hf] at hk
      exact absurd hk (by simp)
    · rw [if_neg hf] at hk
      have hkp : k ≠ pid := fun h => hf (h ▸ hk)
      rw [upd_ne _ _ hkp]
      exact hi.holder k hk
  · intro k hk
    simp only [World.kill] at hk ⊢
    by_cases hkp : k = pid
    · rw [hkp, upd_self]
    · rw [upd_ne _ _ hkp]
      exact hi.fresh k hk

theorem recorded_kill {w : World} {pid : Nat} {p : Proc} (hp : w.procs pid = some p)
    (hn : ∀ st c, p.phase ≠ .truncated st c) : recorded (w.kill pid) = recorded w := by
  by_cases hf : w.flock = some pid
  · rw [recorded_holder hf hp hn, recorded_free]
    · rfl
    · simp [World.kill, hf]
  · refine recorded_congr rfl ?_ ?_
    · simp [World.kill, hf]
    · intro k hk
      have hkp : k ≠ pid := fun h => hf (h ▸ hk)
      simp only [World.kill]
      rw [upd_ne _ _ hkp]

theorem recorded_kill_trunc {w : World} {pid : Nat} {p : Proc} {st : LabTable} {c : Bool} (hi : LabInv w)
    (hp : w.procs pid = some p) (hn : p.phase = .truncated st c) : recorded (w.kill pid) = [] := by
  have hf := (hi.proc pid p hp).holds (by rw [hn]; simp)
  rw [recorded_free]
  · exact (hi.proc pid p hp).empty st c hn
  · simp [World.kill, hf]

/-- The process working on the status file moves to another phase. -/
theorem LabInv.move {w v : World} {pid : Nat} {p q : Proc} (hi : LabInv w) (hp : w.procs pid = some p)
    (hfl : w.flock = none ∨ w.flock = some pid) (hvf : v.flock = if q.phase = .idle then none else some pid)
    (hnext : v.next = w.next) (hpr : v.procs = upd w.procs pid (some q))
    (hload : ∀ st, q.phase = .loaded st → st = v.file)
    (hbusy : q.phase ≠ .idle → ∃ op rest, q.acts = .change op :: rest)
    (hempty : ∀ st c, q.phase = .truncated st c → v.file = []) : LabInv v := by
  have hother : ∀ k r, k ≠ pid → w.procs k = some r → r.phase = .idle := by
    intro k r hk hr
    by_cases h : r.phase = .idle
    · exact h
    · have := (hi.proc k r hr).holds h
      rcases hfl with hf | hf
      · rw [hf] at this
        exact absurd this (by simp)
      · rw [hf] at this
        exact absurd (Option.some.inj this).symm hk
  refine ⟨?_, ?_, ?_⟩
  · intro k r hr
    rw [hpr] at hr
    by_cases hk : k = pid
    · subst hk
      rw [upd_self] at hr
      obtain rfl := Option.some.inj hr
      exact ⟨fun h => by rw [hvf, if_neg h], hload, hbusy, hempty⟩
    · rw [upd_ne _ _ hk] at hr
      have hid := hother k r hk hr
      exact ⟨fun h => absurd hid h, fun st h => by rw [hid] at h; exact absurd h (by simp), fun h => absurd hid h,
        fun st c h => by rw [hid] at h; exact absurd h (by simp)⟩
  · intro k hk
    rw [hvf] at hk
    by_cases hq : q.phase = .idle
    · rw [if_pos hq] at hk
      exact absurd hk (by simp)
    · rw [if_neg hq] at hk
      obtain rfl := Option.some.inj hk
      exact ⟨q, by rw [hpr, upd_self], hq⟩
  · intro k hk
    rw [hnext] at hk
    have hkp : k ≠ pid := by
      intro h
      have := hi.fresh k hk
      rw [h, hp] at this
      exact absurd this (by simp)
    rw [hpr, upd_ne _ _ hkp]
    exact hi.fresh k hk

/-- The process after it truncated the file. -/
def Proc.trunc (p : Proc) (op : StatusOp) (st : LabTable) : Proc :=
  { p with phase := .truncated (applyOp p.dry p.lab p.dir op st).1 (applyOp p.dry p.lab p.dir op st).2 }

/-- How an event changes the recorded lab instances. -/
def Change (w v : World) (e : LabEvent) : Prop :=
  recorded v = recorded w ∨
  ∃ pid p op rest, e = .run pid ∧ w.procs pid = some p ∧ p.acts = .change op :: rest ∧
    p.phase = .loaded (recorded w) ∧ recorded w = w.file ∧
    recorded v = (applyOp p.dry p.lab p.dir op (recorded w)).1 ∧
    v = { w with file := [] }.put pid
      (p.trunc op (recorded w))

theorem stepChange_inv {w : World} {pid : Nat} {p : Proc} {op : StatusOp} {rest : List Act} (hi : LabInv w)
    (hp : w.procs pid = some p) (ha : p.acts = .change op :: rest) :
    LabInv (stepChange w pid p op rest) ∧ Change w (stepChange w pid p op rest) (.run pid) := by
  have hok := hi.proc pid p hp
  unfold stepChange
  cases hph : p.phase with
  | idle =>
    simp only
    by_cases hf : w.flock = none
    · rw [if_pos hf]
      refine ⟨LabInv.move (q := { p with phase := .locked }) hi hp (.inl hf) (by simp [World.put]) rfl rfl
        (by simp) (fun _ => ⟨op, rest, ha⟩) (by simp), .inl ?_⟩
      rw [recorded_free hf]
      rw [recorded_holder (w := World.put _ pid _) (pid := pid) (p := { p with phase := .locked }) rfl (upd_self _ _ _)
        (by simp)]
      rfl
    · rw [if_neg hf]
      exact ⟨hi, .inl rfl⟩
  | locked =>
    have hf := hok.holds (by rw [hph]; simp)
    refine ⟨LabInv.move (q := { p with phase := .loaded w.file }) hi hp (.inr hf) (by simp [World.put, hf]) rfl rfl
      ?_ (fun _ => ⟨op, rest, ha⟩) (by simp), .inl ?_⟩
    · intro st h
      simp only [Phase.loaded.injEq] at h
      exact h.symm
    · rw [recorded_holder hf hp (by rw [hph]; simp)]
      rw [recorded_holder (w := World.put _ pid _) (pid := pid) (p := { p with phase := .loaded w.file }) hf
        (upd_self _ _ _) (by simp)]
      rfl
  | loaded st =>
    have hf := hok.holds (by rw [hph]; simp)
    have hst := hok.fresh st hph
    have hrec : recorded w = w.file := recorded_holder hf hp (by rw [hph]; simp)
    subst hst
    refine ⟨LabInv.move (q := p.trunc op w.file) hi hp (.inr hf)
        (by simp [World.put, hf, Proc.trunc]) rfl rfl (by simp [Proc.trunc])
      (fun _ => ⟨op, rest, ha⟩) (fun _ _ _ => rfl), .inr ⟨pid, p, op, rest, rfl, hp, ha, ?_, hrec, ?_, ?_⟩⟩
    · rw [hrec]
      exact hph
    · rw [hrec]
      exact recorded_trunc (w := World.put _ pid _) (pid := pid) (p := p.trunc op w.file) (c := (applyOp p.dry p.lab p.dir op w.file).2) hf (upd_self _ _ _) rfl
    · rw [hrec]; rfl
  | truncated st c =>
    have hf := hok.holds (by rw [hph]; simp)
    refine ⟨LabInv.move (q := { p with phase := .written c }) hi hp (.inr hf) (by simp [World.put, hf]) rfl rfl (by simp)
      (fun _ => ⟨op, rest, ha⟩) (by simp), .inl ?_⟩
    rw [recorded_trunc hf hp hph]
    exact recorded_holder (w := World.put { w with file := st } pid { p with phase := .written c })
      (pid := pid) (p := { p with phase := .written c }) hf (upd_self _ _ _) (by simp)
  | written c =>
    have hf := hok.holds (by rw [hph]; simp)
    refine ⟨LabInv.move (q := { p with
        acts := if c then [] else rest
        phase := .idle }) hi hp (.inr hf) (by simp [World.put]) rfl rfl (by simp)
      (fun h => absurd rfl h) (by simp), .inl ?_⟩
    rw [recorded_holder hf hp (by rw [hph]; simp), recorded_free rfl]
    rfl

theorem stepProc_inv {w : World} {pid : Nat} {p : Proc} (hi : LabInv w) (hp : w.procs pid = some p) :
    LabInv (stepProc w pid p) ∧ Change w (stepProc w pid p) (.run pid) := by
  have hok := hi.proc pid p hp
  have hidle : (∀ op rest, p.acts ≠ .change op :: rest) → p.phase = .idle := by
    intro h
    by_cases hph : p.phase = .idle
    · exact hph
    · obtain ⟨op, rest, ha⟩ := hok.busy hph
      exact absurd ha (h op rest)
  have hkill : p.phase = .idle → LabInv (w.kill pid) ∧ Change w (w.kill pid) (.run pid) := by
    intro h
    exact ⟨hi.kill hp, .inl (recorded_kill hp (by rw [h]; simp))⟩
  have hput : ∀ (v : World) (q : Proc), p.phase = .idle → q.phase = .idle → v.file = w.file → v.flock = w.flock →
      v.next = w.next → v.procs = upd w.procs pid (some q) → LabInv v ∧ Change w v (.run pid) := by
    intro v q h1 h2 h3 h4 h5 h6
    have := hi.quiet hp h1 h2 h3 h4 h5 h6
    exact ⟨this.1, .inl this.2⟩
  unfold stepProc
  cases ha : p.acts with
  | nil => exact hkill (hidle (by rw [ha]; simp))
  | cons a rest =>
    cases a with
    | change op => exact stepChange_inv hi hp ha
    | checkExisting =>
      have h := hidle (by rw [ha]; simp)
      simp only
      split
      · exact hkill h
      · exact hput _ { p with acts := rest } h h rfl rfl rfl rfl
    | unlockUser =>
      have h := hidle (by rw [ha]; simp)
      simp only
      split
      · exact hput _ { p with acts := .change .logLine :: rest } h h rfl rfl rfl rfl
      · exact hput _ { p with acts := rest } h h rfl rfl rfl rfl
    | checkWriteable =>
      have h := hidle (by rw [ha]; simp)
      simp only
      split
      · exact hkill h
      · exact hput _ { p with acts := rest } h h rfl rfl rfl rfl
    | writeFiles =>
      have h := hidle (by rw [ha]; simp)
      exact hput _ { p with acts := rest } h h rfl rfl rfl rfl
    | checkInstance =>
      have h := hidle (by rw [ha]; simp)
      simp only
      split
      · exact hkill h
      · exact hput _ { p with acts := rest } h h rfl rfl rfl rfl
    | lockDir =>
      have h := hidle (by rw [ha]; simp)
      exact hput _ { p with acts := rest } h h rfl rfl rfl rfl
    | startWork =>
      have h := hidle (by rw [ha]; simp)
      exact hput _ { p with acts := rest } h h rfl rfl rfl rfl
    | touchLock =>
      have h := hidle (by rw [ha]; simp)
      exact hput _ { p with acts := rest } h h rfl rfl rfl rfl
    | checkMismatch f c =>
      have h := hidle (by rw [ha]; simp)
      simp only
      cases labDirMismatch p.lab p.dir f c w.file with
      | none => exact hkill h
      | some m =>
        exact hput _ { p with
          acts := rest
          mismatch := m } h h rfl rfl rfl rfl
    | stopWork =>
      have h := hidle (by rw [ha]; simp)
      exact hput _ { p with acts := rest } h h rfl rfl rfl rfl
    | removeUnlessMismatch =>
      have h := hidle (by rw [ha]; simp)
      exact hput _ { p with acts := if p.mismatch then rest else .change .remove :: rest } h h rfl rfl rfl rfl
    | unlockDir =>
      have h := hidle (by rw [ha]; simp)
      exact hput _ { p with acts := rest } h h rfl rfl rfl rfl

/-- The file lock does its job, in every history in which the user does not delete the status file. -/
theorem labStep_inv {w : World} {e : LabEvent} (hi : LabInv w) (hr : ¬ IsReset e) : LabInv (labStep w e) := by
  cases e with
  | spawn c dir lab =>
    have hnew : w.procs w.next = none := hi.fresh _ (Nat.le_refl _)
    refine ⟨?_, ?_, ?_⟩
    · intro k r hr
      simp only [labStep] at hr
      by_cases hk : k = w.next
      · subst hk
        rw [upd_self] at hr
        obtain rfl := Option.some.inj hr
        exact ⟨fun h => absurd rfl h, fun st h => by simp at h, fun h => absurd rfl h, fun st c h => by simp at h⟩
      · rw [upd_ne _ _ hk] at hr
        have := hi.proc k r hr
        exact ⟨this.holds, this.fresh, this.busy, this.empty⟩
    · intro k hk
      obtain ⟨p, hp, hn⟩ := hi.holder k hk
      have hkn : k ≠ w.next := by
        intro h
        rw [h, hnew] at hp
        exact absurd hp (by simp)
      exact ⟨p, by simp only [labStep]; rw [upd_ne _ _ hkn]; exact hp, hn⟩
    · intro k hk
      simp only [labStep] at hk ⊢
      rw [upd_ne _ _ (by omega)]
      exact hi.fresh k (by omega)
  | run pid =>
    simp only [labStep]
    cases hp : w.procs pid with
    | none => exact hi
    | some p => exact (stepProc_inv hi hp).1
  | crash pid =>
    simp only [labStep]
    cases hp : w.procs pid with
    | none => exact hi
    | some p => exact hi.kill hp
  | reset => exact absurd trivial hr

theorem labStep_change {w : World} {e : LabEvent} (hi : LabInv w) (hr : ¬ IsReset e) (hc : ¬ CrashMidWrite w e) :
    Change w (labStep w e) e := by
  cases e with
  | spawn c dir lab =>
    have hnew : w.procs w.next = none := hi.fresh _ (Nat.le_refl _)
    refine .inl (recorded_congr rfl rfl ?_)
    intro k hk
    obtain ⟨p, hp, -⟩ := hi.holder k hk
    have hkn : k ≠ w.next := by
      intro h
      rw [h, hnew] at hp
      exact absurd hp (by simp)
    simp only [labStep]
    rw [upd_ne _ _ hkn]
  | run pid =>
    simp only [labStep]
    cases hp : w.procs pid with
    | none => exact .inl rfl
    | some p => exact (stepProc_inv hi hp).2
  | crash pid =>
    simp only [labStep]
    cases hp : w.procs pid with
    | none => exact .inl rfl
    | some p =>
      refine .inl (recorded_kill hp ?_)
      intro st c h
      exact hc ⟨p, st, c, hp, h⟩
  | reset => exact absurd trivial hr

theorem labInv_init : LabInv World.init :=
  ⟨fun pid p h => by simp [World.init] at h, fun pid h => by simp [World.init] at h, fun _ _ => rfl⟩

/-! ### Callbacks and owners -/

theorem owner_update (dry : Bool) (lab cwd l : String) (f : LabEntry → LabEntry) (st : LabTable)
    (hf : ∀ e, (f e).dir = e.dir) :
    owner (labStatusUpdate dry lab cwd f st) l =
      if l = lab ∧ dry = false then some ((owner st lab).getD cwd) else owner st l := by
  unfold labStatusUpdate
  cases dry with
  | true => simp
  | false =>
    simp only [Bool.false_eq_true, if_false, and_true]
    unfold owner
    rw [lookup_setKey]
    by_cases h : l = lab
    · subst h
      simp only [if_true, Option.map_some, hf]
      unfold entryOrNew
      cases st.lookup l <;> rfl
    · rw [if_neg h, if_neg h]

/-- What a callback does to owners. -/
theorem owner_applyOp (dry : Bool) (lab cwd l : String) (op : StatusOp) (st : LabTable) :
    owner (applyOp dry lab cwd op st).1 l =
      if l ≠ lab then owner st l
      else if op = .remove then none
      else if dry then owner st lab
      else some ((owner st lab).getD cwd) := by
  by_cases hl : l = lab
  · subst hl
    cases op with
    | remove => simp [applyOp, owner, lookup_popKey]
    | status t => cases dry <;> simp [applyOp, owner_update]
    | provider t p => cases dry <;> simp [applyOp, owner_update]
    | logLine => cases dry <;> simp [applyOp, owner_update]
    | start n =>
      simp only [applyOp, labStatusStart]
      cases hs : st.lookup l with
      | none => cases dry <;> simp [owner_update]
      | some e =>
        simp only
        split <;> cases dry <;> simp [owner_update]
  · cases op with
    | remove => simp [applyOp, owner, lookup_popKey, hl]
    | status t => simp [applyOp, owner_update, hl]
    | provider t p => simp [applyOp, owner_update, hl]
    | logLine => simp [applyOp, owner_update, hl]
    | start n =>
      simp only [applyOp, labStatusStart]
      cases hs : st.lookup lab with
      | none => simp [owner_update, hl]
      | some e =>
        simp only
        split <;> simp [owner_update, hl]

theorem conflict_iff (dry : Bool) (lab cwd : String) (op : StatusOp) (st : LabTable) :
    (applyOp dry lab cwd op st).2 = true ↔ (∃ n, op = .start n) ∧ ∃ d, owner st lab = some d ∧ d ≠ cwd := by
  cases op with
  | remove => simp [applyOp]
  | status t => simp [applyOp]
  | provider t p => simp [applyOp]
  | logLine => simp [applyOp]
  | start n =>
    simp only [applyOp, labStatusStart, owner]
    cases hs : st.lookup lab with
    | none => simp
    | some e =>
      simp only
      by_cases h : e.dir = cwd <;> simp [h]

/-! ### C36 -/

theorem owner_step {w : World} {e : LabEvent} {lab d : String} (hi : LabInv w) (hr : ¬ IsReset e)
    (hc : ¬ CrashMidWrite w e) (hn : ∀ dir, ¬ Removes lab dir w e) (ho : owner (recorded w) lab = some d) :
    owner (recorded (labStep w e)) lab = some d := by
  rcases labStep_change hi hr hc with h | ⟨pid, p, op, rest, rfl, hp, ha, hph, -, hrec, -⟩
  · rw [h]; exact ho
  · rw [hrec, owner_applyOp]
    by_cases hl : lab = p.lab
    · subst hl
      have hop : op ≠ .remove := by
        intro h
        subst h
        exact hn p.dir ⟨p, rest, _, hp, rfl, rfl, ha, hph⟩
      simp [hop, ho]
    · simp [hl, ho]

theorem owner_run {lab d : String} (h : List LabEvent) : ∀ (w : World), LabInv w →
    Along (fun w e => ¬ IsReset e ∧ ¬ CrashMidWrite w e ∧ ∀ dir, ¬ Removes lab dir w e) w h →
    owner (recorded w) lab = some d → owner (recorded (labRun w h)) lab = some d := by
  induction h with
  | nil => intro w _ _ ho; exact ho
  | cons e rest ih =>
    intro w hi hal ho
    exact ih (labStep w e) (labStep_inv hi hal.1.1) hal.2 (owner_step hi hal.1.1 hal.1.2.1 hal.1.2.2 ho)

theorem labInv_run (h : List LabEvent) : ∀ (w : World), LabInv w → (∀ e ∈ h, ¬ IsReset e) → LabInv (labRun w h) := by
  induction h with
  | nil => intro w hi _; exact hi
  | cons e rest ih =>
    intro w hi hal
    exact ih _ (labStep_inv hi (hal e (List.mem_cons_self ..))) (fun x hx => hal x (List.mem_cons_of_mem _ hx))

/-- **C36.**  Whatever commands run, in whatever order their steps are executed and wherever they crash
(outside of the window in which the status file is empty), the directory recorded for a lab instance stays
the same until somebody removes the instance from the status file. -/
theorem C36_owner_kept (before after : List LabEvent) (lab d : String)
    (hb : ∀ e ∈ before, ¬ IsReset e)
    (ha : Along (fun w e => ¬ IsReset e ∧ ¬ CrashMidWrite w e ∧ ∀ dir, ¬ Removes lab dir w e)
      (labRun .init before) after)
    (hq : (labRun .init before).flock = none) (hq' : (labRun (labRun .init before) after).flock = none)
    (ho : owner (labRun .init before).file lab = some d) :
    owner (labRun (labRun .init before) after).file lab = some d := by
  have hi := labInv_run before .init labInv_init hb
  have := owner_run after _ hi ha (by rw [recorded_free hq]; exact ho)
  rwa [recorded_free hq'] at this

/-! ### Shape of a step -/

/-- What a step does to the processes. -/
inductive Shape (w v : World) (pid : Nat) (p : Proc) : Prop
  | same (h : v = w)
  | gone (h : v = w.kill pid)
  | goes (q : Proc) (h : v.procs = upd w.procs pid (some q)) (hd : q.dir = p.dir) (hl : q.lab = p.lab)

theorem stepProc_shape (w : World) (pid : Nat) (p : Proc) : Shape w (stepProc w pid p) pid p := by
  unfold stepProc
  cases ha : p.acts with
  | nil => exact .gone rfl
  | cons a rest =>
    cases a with
    | change op =>
      simp only
      unfold stepChange
      cases hph : p.phase with
      | idle =>
        simp only
        split
        · exact .goes _ rfl rfl rfl
        · exact .same rfl
      | locked => exact .goes _ rfl rfl rfl
      | loaded st => exact .goes _ rfl rfl rfl
      | truncated st c => exact .goes _ rfl rfl rfl
      | written c => exact .goes _ rfl rfl rfl
    | checkExisting => simp only; split; exact .gone rfl; exact .goes _ rfl rfl rfl
    | unlockUser => simp only; split <;> exact .goes _ rfl rfl rfl
    | checkWriteable => simp only; split; exact .gone rfl; exact .goes _ rfl rfl rfl
    | writeFiles => exact .goes _ rfl rfl rfl
    | checkInstance => simp only; split; exact .gone rfl; exact .goes _ rfl rfl rfl
    | lockDir => exact .goes _ rfl rfl rfl
    | startWork => exact .goes _ rfl rfl rfl
    | touchLock => exact .goes _ rfl rfl rfl
    | checkMismatch f c =>
      simp only
      cases labDirMismatch p.lab p.dir f c w.file with
      | none => exact .gone rfl
      | some m => exact .goes _ rfl rfl rfl
    | stopWork => exact .goes _ rfl rfl rfl
    | removeUnlessMismatch => exact .goes _ rfl rfl rfl
    | unlockDir => exact .goes _ rfl rfl rfl

/-- A property of all processes, after one of them changed. -/
theorem all_upd {procs : Nat → Option Proc} {pid : Nat} {o : Option Proc} {P : Proc → Prop}
    (hall : ∀ k r, k ≠ pid → procs k = some r → P r) (ho : ∀ q, o = some q → P q) :
    ∀ k r, upd procs pid o k = some r → P r := by
  intro k r hr
  by_cases hk : k = pid
  · subst hk
    rw [upd_self] at hr
    exact ho r hr
  · rw [upd_ne _ _ hk] at hr
    exact hall k r hk hr

/-! ### At most one directory starts a lab instance -/

/-- No workload is started before the lab instance is registered. -/
def startSafe (dry : Bool) : List Act → Prop
  | [] => True
  | a :: r => a ≠ .startWork ∧ (startSafe dry r ∨ (dry = false ∧ ∃ n, a = .change (.start n)))

/-- The current status change succeeded. -/
def passed (p : Proc) : Prop := (∃ st, p.phase = .truncated st false) ∨ p.phase = .written false

theorem startSafe_of_no (dry : Bool) (l : List Act) (h : ∀ a ∈ l, a ≠ .startWork) : startSafe dry l := by
  induction l with
  | nil => trivial
  | cons a r ih =>
    exact ⟨h a (List.mem_cons_self ..), .inl (ih (fun x hx => h x (List.mem_cons_of_mem _ hx)))⟩

theorem startSafe_append (dry : Bool) (l m : List Act) (h : ∀ a ∈ l, a ≠ .startWork) (hm : startSafe dry m) :
    startSafe dry (l ++ m) := by
  induction l with
  | nil => exact hm
  | cons a r ih =>
    exact ⟨h a (List.mem_cons_self ..), .inl (ih (fun x hx => h x (List.mem_cons_of_mem _ hx)))⟩

theorem createActs_mem (u : Bool) (n : Nat) (a : Act) (h : a ∈ createActs u n) :
    a = .unlockUser ∨ a = .checkWriteable ∨ a = .writeFiles := by
  induction n with
  | zero =>
    simp only [createActs] at h
    split at h
    · simp at h
      exact .inl h
    · exact absurd h (by simp)
  | succ n ih =>
    simp only [createActs, List.mem_append, List.mem_cons, List.not_mem_nil, or_false] at h
    rcases h with h | h | h
    · exact ih h
    · exact .inr (.inl h)
    · exact .inr (.inr h)

theorem stopActs_mem (l : List String) (a : Act) (h : a ∈ stopActs l) : ∃ t, a = .change (.status t) := by
  induction l with
  | nil => exact absurd h (by simp [stopActs])
  | cons p r ih =>
    simp only [stopActs, List.mem_cons] at h
    rcases h with h | h
    · exact ⟨_, h⟩
    · exact ih h

theorem providersActs_dry (l : List String) (a : Act) (h : a ∈ providersActs true l) :
    ∃ t p, a = .change (.provider t p) := by
  induction l with
  | nil => exact absurd h (by simp [providersActs])
  | cons p r ih =>
    simp only [providersActs, providerActs, Bool.false_eq_true, if_false, if_true, List.mem_append, List.mem_cons,
      List.not_mem_nil, or_false] at h
    rcases h with h | h
    · exact ⟨_, _, h⟩
    · exact ih h

theorem startSafe_acts (c : Cmd) : startSafe c.dry c.acts := by
  cases c with
  | create u n =>
    refine startSafe_of_no _ _ ?_
    intro a ha
    rcases createActs_mem u n a ha with h | h | h <;> simp [h]
  | initial =>
    refine startSafe_of_no _ _ ?_
    simp [Cmd.acts, initialActs]
  | down o =>
    refine startSafe_of_no _ _ ?_
    intro a ha
    simp only [Cmd.acts, downActs, downEnd, List.mem_cons] at ha
    rcases ha with ha | ha
    · simp [ha]
    · split at ha
      · simp at ha
        simp [ha]
      · simp only [List.mem_cons, List.mem_append] at ha
        rcases ha with ha | (ha | ha) | ha
        · simp [ha]
        · split at ha
          · simp at ha
            rcases ha with h | h <;> simp [h]
          · exact absurd ha (by simp)
        · obtain ⟨t, ht⟩ := stopActs_mem _ _ ha
          simp [ht]
        · split at ha
          · simp at ha
            rcases ha with h | h | h <;> simp [h]
          · split at ha
            · simp at ha
              rcases ha with h | h <;> simp [h]
            · exact absurd ha (by simp)
  | up o =>
    simp only [Cmd.acts, Cmd.dry, upActs, List.append_assoc]
    refine startSafe_append _ _ _ ?_ ?_
    · intro a ha
      split at ha
      · exact absurd ha (by simp)
      · simp at ha
        simp [ha]
    refine startSafe_append _ _ _ ?_ ?_
    · intro a ha
      split at ha
      · exact absurd ha (by simp)
      · rcases createActs_mem _ _ a ha with h | h | h <;> simp [h]
    refine startSafe_append _ _ _ ?_ ?_
    · intro a ha
      split at ha
      · exact absurd ha (by simp)
      · simp at ha
        simp [ha]
    rw [List.singleton_append]
    refine ⟨by simp, ?_⟩
    cases hd : o.dry with
    | false => exact .inr ⟨rfl, o.name, rfl⟩
    | true =>
      refine .inl (startSafe_of_no _ _ ?_)
      intro a ha
      by_cases hab : o.abort = true
      · simp [providerActs, hab] at ha
        rcases ha with h | h | h <;> simp [h]
      · simp only [List.nil_append, if_true, if_neg hab, List.mem_append, List.mem_cons,
          List.not_mem_nil, or_false] at ha
        rcases ha with h | h
        · obtain ⟨t, p, hp⟩ := providersActs_dry _ _ h
          simp [hp]
        · simp [h]

/-- Either the lab instance belongs to the directory of the process, or the process did not register it yet. -/
def StartOk (lab : String) (w : World) (p : Proc) : Prop :=
  owner (recorded w) lab = some p.dir ∨
    (startSafe p.dry p.acts ∧ (passed p → startSafe p.dry p.acts.tail))

structure StartInv (lab : String) (w : World) : Prop where
  run : ∀ d, w.running d = some lab → owner (recorded w) lab = some d
  proc : ∀ pid p, w.procs pid = some p → p.lab = lab → StartOk lab w p

theorem startSafe_tail {dry : Bool} {a : Act} {rest : List Act} (h : startSafe dry (a :: rest))
    (hn : ∀ n, a ≠ .change (.start n)) : startSafe dry rest := by
  rcases h.2 with h | ⟨-, n, hn'⟩
  · exact h
  · exact absurd hn' (hn n)

/-- The process that makes a step keeps its invariant. -/
theorem startOk_step {w v : World} {pid : Nat} {p : Proc} {lab : String} (hi : LabInv w)
    (hp : w.procs pid = some p) (hl : p.lab = lab) (hv : v = stepProc w pid p)
    (hmono : ∀ d, owner (recorded w) lab = some d → owner (recorded v) lab = some d)
    (hch : Change w v (.run pid)) (hok : StartOk lab w p) :
    (∀ q, v.procs pid = some q → StartOk lab v q) ∧
    (∀ d, v.running d = some lab → w.running d = some lab ∨ owner (recorded v) lab = some d) := by
  have hdir : ∀ q, v.procs pid = some q → q.dir = p.dir := by
    intro q hq
    subst hv
    rcases stepProc_shape w pid p with h | h | ⟨q', h, hd, -⟩
    · rw [h, hp] at hq
      rw [Option.some.inj hq]
    · rw [h] at hq
      simp [World.kill, upd_self] at hq
    · rw [h, upd_self] at hq
      rw [← Option.some.inj hq]
      exact hd
  rcases hok with ho | ⟨hs, hpass⟩
  · refine ⟨fun q hq => .inl ?_, ?_⟩
    · rw [hdir q hq]
      exact hmono _ ho
    · intro d hd
      by_cases hdp : d = p.dir
      · subst hdp
        exact .inr (hmono _ ho)
      · refine .inl ?_
        subst hv
        revert hd
        unfold stepProc stepChange
        split <;> (repeat' split) <;> simp [World.put, World.kill, upd, hdp]
  · have hidle : (∀ op rest, p.acts ≠ .change op :: rest) → p.phase = .idle := by
      intro h
      by_cases hph : p.phase = .idle
      · exact hph
      · obtain ⟨op, rest, ha⟩ := (hi.proc pid p hp).busy hph
        exact absurd ha (h op rest)
    have hkill : v = w.kill pid → (∀ q, v.procs pid = some q → StartOk lab v q) ∧
        (∀ d, v.running d = some lab → w.running d = some lab ∨ owner (recorded v) lab = some d) := by
      intro h
      subst h
      refine ⟨fun q hq => ?_, fun d hd => .inl hd⟩
      simp [World.kill, upd_self] at hq
    have hput : ∀ q, v.procs = upd w.procs pid (some q) → startSafe q.dry q.acts →
        (passed q → startSafe q.dry q.acts.tail) → (∀ d, v.running d = some lab → w.running d = some lab) →
        (∀ q, v.procs pid = some q → StartOk lab v q) ∧
        (∀ d, v.running d = some lab → w.running d = some lab ∨ owner (recorded v) lab = some d) := by
      intro q h1 h2 h3 h4
      refine ⟨fun q' hq' => ?_, fun d hd => .inl (h4 d hd)⟩
      rw [h1, upd_self] at hq'
      obtain rfl := Option.some.inj hq'
      exact .inr ⟨h2, h3⟩
    have hidlepass : ∀ q : Proc, q.phase = .idle → passed q → startSafe q.dry q.acts.tail := by
      intro q hq h
      rcases h with ⟨st, h⟩ | h <;> rw [hq] at h <;> exact absurd h (by simp)
    unfold stepProc at hv
    cases ha : p.acts with
    | nil =>
      rw [ha] at hv
      exact hkill hv
    | cons a rest =>
      rw [ha] at hv hs hpass
      cases a with
      | change op =>
        simp only [List.tail_cons] at hpass
        unfold stepChange at hv
        cases hph : p.phase with
        | idle =>
          rw [hph] at hv
          simp only at hv
          split at hv
          · subst hv
            refine hput { p with phase := .locked } rfl ?_ ?_ (fun d hd => hd)
            · rw [ha]; exact hs
            · intro h
              simp [passed] at h
          · subst hv
            refine ⟨fun q hq => ?_, fun d hd => .inl hd⟩
            rw [hp] at hq
            obtain rfl := Option.some.inj hq
            refine .inr ⟨by rw [ha]; exact hs, ?_⟩
            intro h
            simp [passed, hph] at h
        | locked =>
          rw [hph] at hv
          subst hv
          refine hput { p with phase := .loaded w.file } rfl ?_ ?_ (fun d hd => hd)
          · rw [ha]; exact hs
          · intro h
            simp [passed] at h
        | loaded st =>
          rw [hph] at hv
          simp only at hv
          rcases hs.2 with hs' | ⟨hdry, n, hn⟩
          · subst hv
            refine hput (p.trunc op st) rfl ?_ ?_ (fun d hd => hd)
            · show startSafe p.dry p.acts
              rw [ha]; exact hs
            · intro _
              show startSafe p.dry p.acts.tail
              rw [ha]
              exact hs'
          · simp only [Act.change.injEq] at hn
            cases hc : (applyOp p.dry p.lab p.dir op st).2 with
            | true =>
              rw [hc] at hv
              subst hv
              refine hput { p with phase := .truncated (applyOp p.dry p.lab p.dir op st).1 true } rfl ?_ ?_ (fun d hd => hd)
              · rw [ha]; exact hs
              · intro h
                simp [passed] at h
            | false =>
              have hst : st = recorded w := by
                have h1 := (hi.proc pid p hp).fresh st hph
                have h2 := (hi.proc pid p hp).holds (by rw [hph]; simp)
                rw [recorded_holder h2 hp (by rw [hph]; simp)]
                exact h1
              have hnew : owner (recorded v) lab = some p.dir := by
                rw [hv]
                have : recorded (World.put { w with file := [] } pid
                    { p with phase := .truncated (applyOp p.dry p.lab p.dir op st).1 (applyOp p.dry p.lab p.dir op st).2 })
                    = (applyOp p.dry p.lab p.dir op st).1 :=
                  recorded_trunc (pid := pid) ((hi.proc pid p hp).holds (by rw [hph]; simp)) (upd_self _ _ _) rfl
                rw [this, owner_applyOp, ← hl, hdry, hn]
                have hcf : ¬ ((applyOp p.dry p.lab p.dir op st).2 = true) := by rw [hc]; simp
                rw [conflict_iff] at hcf
                simp only [ne_eq, not_true_eq_false, if_false, reduceCtorEq, Bool.false_eq_true]
                cases ho : owner st p.lab with
                | none => rfl
                | some d =>
                  by_cases hd : d = p.dir
                  · rw [hd]; rfl
                  · exact absurd ⟨⟨n, hn⟩, d, ho, hd⟩ hcf
              refine ⟨fun q hq => .inl ?_, ?_⟩
              · rw [hdir q hq]
                exact hnew
              · intro d hd
                subst hv
                exact .inl hd
        | truncated st c =>
          rw [hph] at hv
          subst hv
          refine hput { p with phase := .written c } rfl ?_ ?_ (fun d hd => hd)
          · rw [ha]; exact hs
          · intro h
            rw [ha]
            refine hpass ?_
            simp [passed] at h
            exact .inl ⟨st, by rw [hph, h]⟩
        | written c =>
          rw [hph] at hv
          subst hv
          refine hput { p with
            acts := if c then [] else rest
            phase := .idle } rfl ?_ (hidlepass _ rfl) (fun d hd => hd)
          cases c with
          | true => trivial
          | false => exact hpass (.inr hph)
      | checkExisting =>
        have h := hidle (by rw [ha]; simp)
        simp only at hv
        split at hv
        · exact hkill hv
        · subst hv
          exact hput { p with acts := rest } rfl (startSafe_tail hs (by simp)) (hidlepass _ h) (fun d hd => hd)
      | unlockUser =>
        have h := hidle (by rw [ha]; simp)
        simp only at hv
        split at hv
        · subst hv
          exact hput { p with acts := .change .logLine :: rest } rfl ⟨by simp, .inl (startSafe_tail hs (by simp))⟩
            (hidlepass _ h) (fun d hd => hd)
        · subst hv
          exact hput { p with acts := rest } rfl (startSafe_tail hs (by simp)) (hidlepass _ h) (fun d hd => hd)
      | checkWriteable =>
        have h := hidle (by rw [ha]; simp)
        simp only at hv
        split at hv
        · exact hkill hv
        · subst hv
          exact hput { p with acts := rest } rfl (startSafe_tail hs (by simp)) (hidlepass _ h) (fun d hd => hd)
      | writeFiles =>
        have h := hidle (by rw [ha]; simp)
        subst hv
        exact hput { p with acts := rest } rfl (startSafe_tail hs (by simp)) (hidlepass _ h) (fun d hd => hd)
      | checkInstance =>
        have h := hidle (by rw [ha]; simp)
        simp only at hv
        split at hv
        · exact hkill hv
        · subst hv
          exact hput { p with acts := rest } rfl (startSafe_tail hs (by simp)) (hidlepass _ h) (fun d hd => hd)
      | lockDir =>
        have h := hidle (by rw [ha]; simp)
        subst hv
        exact hput { p with acts := rest } rfl (startSafe_tail hs (by simp)) (hidlepass _ h) (fun d hd => hd)
      | startWork => exact absurd rfl hs.1
      | touchLock =>
        have h := hidle (by rw [ha]; simp)
        subst hv
        exact hput { p with acts := rest } rfl (startSafe_tail hs (by simp)) (hidlepass _ h) (fun d hd => hd)
      | checkMismatch f c =>
        have h := hidle (by rw [ha]; simp)
        simp only at hv
        cases hm : labDirMismatch p.lab p.dir f c w.file with
        | none =>
          rw [hm] at hv
          exact hkill hv
        | some m =>
          rw [hm] at hv
          subst hv
          exact hput { p with
            acts := rest
            mismatch := m } rfl (startSafe_tail hs (by simp)) (hidlepass _ h) (fun d hd => hd)
      | stopWork =>
        have h := hidle (by rw [ha]; simp)
        subst hv
        refine hput { p with acts := rest } rfl (startSafe_tail hs (by simp)) (hidlepass _ h) ?_
        intro d hd
        simp only [World.put, upd] at hd
        split at hd
        · exact absurd hd (by simp)
        · exact hd
      | removeUnlessMismatch =>
        have h := hidle (by rw [ha]; simp)
        subst hv
        refine hput { p with acts := if p.mismatch then rest else .change .remove :: rest } rfl ?_ (hidlepass _ h)
          (fun d hd => hd)
        have := startSafe_tail hs (by simp)
        simp only
        split
        · exact this
        · exact ⟨by simp, .inl this⟩
      | unlockDir =>
        have h := hidle (by rw [ha]; simp)
        subst hv
        exact hput { p with acts := rest } rfl (startSafe_tail hs (by simp)) (hidlepass _ h) (fun d hd => hd)

theorem startInv_step {w : World} {e : LabEvent} {lab : String} (hi : LabInv w) (hs : StartInv lab w)
    (hr : ¬ IsReset e) (hc : ¬ CrashMidWrite w e) (hn : ∀ dir, ¬ Removes lab dir w e) : StartInv lab (labStep w e) := by
  have hmono : ∀ d, owner (recorded w) lab = some d → owner (recorded (labStep w e)) lab = some d :=
    fun d h => owner_step hi hr hc hn h
  have hsame : ∀ p, StartOk lab w p → StartOk lab (labStep w e) p := by
    intro p h
    rcases h with h | h
    · exact .inl (hmono _ h)
    · exact .inr h
  have hch := labStep_change hi hr hc
  cases e with
  | spawn c dir l =>
    refine ⟨fun d hd => hmono d (hs.run d hd), ?_⟩
    intro k r hr' hl
    simp only [labStep] at hr'
    by_cases hk : k = w.next
    · subst hk
      rw [upd_self] at hr'
      obtain rfl := Option.some.inj hr'
      refine .inr ⟨startSafe_acts c, ?_⟩
      intro h
      simp [passed] at h
    · rw [upd_ne _ _ hk] at hr'
      exact hsame r (hs.proc k r hr' hl)
  | run pid =>
    cases hp : w.procs pid with
    | none =>
      have : labStep w (.run pid) = w := by simp [labStep, hp]
      rw [this]
      exact hs
    | some p =>
      have hv : labStep w (.run pid) = stepProc w pid p := by simp [labStep, hp]
      have hother : ∀ k, k ≠ pid → (labStep w (.run pid)).procs k = w.procs k := by
        intro k hk
        rw [hv]
        rcases stepProc_shape w pid p with h | h | ⟨q', h, -, -⟩
        · rw [h]
        · rw [h]
          exact upd_ne _ _ hk
        · rw [h]
          exact upd_ne _ _ hk
      by_cases hl : p.lab = lab
      · have := startOk_step hi hp hl hv hmono hch (hs.proc pid p hp hl)
        refine ⟨?_, ?_⟩
        · intro d hd
          rcases this.2 d hd with h | h
          · exact hmono d (hs.run d h)
          · exact h
        · intro k r hr' hl'
          by_cases hk : k = pid
          · subst hk
            exact this.1 r hr'
          · rw [hother k hk] at hr'
            exact hsame r (hs.proc k r hr' hl')
      · refine ⟨?_, ?_⟩
        · intro d hd
          refine hmono d (hs.run d ?_)
          rw [hv] at hd
          revert hd
          unfold stepProc stepChange
          split <;> (repeat' split) <;> simp [World.put, World.kill, upd]
          · split
            · intro h
              exact absurd (Option.some.inj h) hl
            · exact id
        · intro k r hr' hl'
          by_cases hk : k = pid
          · subst hk
            rw [hv] at hr'
            rcases stepProc_shape w k p with h | h | ⟨q', h, -, hlab⟩
            · rw [h, hp] at hr'
              rw [← Option.some.inj hr'] at hl'
              exact absurd hl' hl
            · rw [h] at hr'
              simp [World.kill, upd_self] at hr'
            · rw [h, upd_self] at hr'
              rw [← Option.some.inj hr', hlab] at hl'
              exact absurd hl' hl
          · rw [hother k hk] at hr'
            exact hsame r (hs.proc k r hr' hl')
  | crash pid =>
    cases hp : w.procs pid with
    | none =>
      have : labStep w (.crash pid) = w := by simp [labStep, hp]
      rw [this]
      exact hs
    | some p =>
      have hv : labStep w (.crash pid) = w.kill pid := by simp [labStep, hp]
      refine ⟨?_, ?_⟩
      · intro d hd
        rw [hv] at hd
        exact hmono d (hs.run d hd)
      · intro k r hr' hl'
        rw [hv] at hr'
        simp only [World.kill, upd] at hr'
        split at hr'
        · exact absurd hr' (by simp)
        · exact hsame r (hs.proc k r hr' hl')
  | reset => exact absurd trivial hr

theorem startInv_run {lab : String} (h : List LabEvent) : ∀ (w : World), LabInv w → StartInv lab w →
    Along (fun w e => ¬ IsReset e ∧ ¬ CrashMidWrite w e ∧ ∀ dir, ¬ Removes lab dir w e) w h →
    StartInv lab (labRun w h) := by
  induction h with
  | nil => intro w _ hs _; exact hs
  | cons e rest ih =>
    intro w hi hs hal
    exact ih _ (labStep_inv hi hal.1.1) (startInv_step hi hs hal.1.1 hal.1.2.1 hal.1.2.2) hal.2

/-- **C36.**  Whatever commands run, in whatever order their steps are executed and wherever they crash
(outside of the window in which the status file is empty), workloads of a lab instance are started from one
directory only, until the instance is removed from the status file. -/
theorem C36_one_directory (h : List LabEvent) (lab d₁ d₂ : String)
    (ha : Along (fun w e => ¬ IsReset e ∧ ¬ CrashMidWrite w e ∧ ∀ dir, ¬ Removes lab dir w e) .init h)
    (h₁ : (labRun .init h).running d₁ = some lab) (h₂ : (labRun .init h).running d₂ = some lab) : d₁ = d₂ := by
  have := startInv_run h .init labInv_init ⟨fun d hd => by simp [World.init] at hd, fun pid p hp => by simp [World.init] at hp⟩ ha
  have e₁ := this.run d₁ h₁
  rw [this.run d₂ h₂] at e₁
  exact (Option.some.inj e₁).symm

/-! ### A lab instance is removed by its owner -/

/-- No removal before the owner is checked. -/
def removeSafe : Bool → List Act → Prop
  | _, [] => True
  | m, a :: r => a ≠ .change .remove ∧ (a = .removeUnlessMismatch → m = true) ∧
      ((∃ n, a = .change (.start n)) ∨ (∃ f c, a = .checkMismatch f c ∧ removeSafe true r) ∨
        ((∀ f c, a ≠ .checkMismatch f c) ∧ removeSafe m r))

theorem removeSafe_append (m : Bool) (l k : List Act)
    (h : ∀ a ∈ l, a ≠ .change .remove ∧ a ≠ .removeUnlessMismatch ∧ ∀ f c, a ≠ .checkMismatch f c)
    (hk : removeSafe m k) : removeSafe m (l ++ k) := by
  induction l with
  | nil => exact hk
  | cons a r ih =>
    have ha := h a (List.mem_cons_self ..)
    exact ⟨ha.1, fun hc => absurd hc ha.2.1,
      .inr (.inr ⟨ha.2.2, ih (fun x hx => h x (List.mem_cons_of_mem _ hx))⟩)⟩

theorem removeSafe_of_no (m : Bool) (l : List Act)
    (h : ∀ a ∈ l, a ≠ .change .remove ∧ a ≠ .removeUnlessMismatch ∧ ∀ f c, a ≠ .checkMismatch f c) :
    removeSafe m l := by
  have := removeSafe_append m l [] h trivial
  rwa [List.append_nil] at this

theorem removeSafe_downEnd (dry : Bool) : removeSafe true (downEnd dry) := by
  refine ⟨by simp, fun _ => rfl, .inr (.inr ⟨by simp, ?_⟩)⟩
  refine removeSafe_of_no _ _ ?_
  intro a ha
  split at ha
  · exact absurd ha (by simp)
  · simp at ha
    simp [ha]

theorem removeSafe_acts (c : Cmd) : removeSafe false c.acts := by
  cases c with
  | create u n =>
    refine removeSafe_of_no _ _ ?_
    intro a ha
    rcases createActs_mem u n a ha with h | h | h <;> simp [h]
  | initial =>
    refine removeSafe_of_no _ _ ?_
    simp [Cmd.acts, initialActs]
  | down o =>
    refine ⟨by simp, by simp, .inr (.inl ⟨_, _, rfl, ?_⟩)⟩
    split
    · exact removeSafe_downEnd true
    · refine ⟨by simp, by simp, .inr (.inr ⟨by simp, ?_⟩)⟩
      rw [List.append_assoc]
      refine removeSafe_append _ _ _ ?_ ?_
      · intro a ha
        split at ha
        · simp at ha
          rcases ha with h | h <;> simp [h]
        · exact absurd ha (by simp)
      refine removeSafe_append _ _ _ ?_ ?_
      · intro a ha
        obtain ⟨t, ht⟩ := stopActs_mem _ _ ha
        simp [ht]
      split
      · exact ⟨by simp, by simp, .inr (.inr ⟨by simp, removeSafe_downEnd false⟩)⟩
      · split
        · exact removeSafe_downEnd false
        · trivial
  | up o =>
    simp only [Cmd.acts, upActs, List.append_assoc]
    refine removeSafe_append _ _ _ ?_ ?_
    · intro a ha
      split at ha
      · exact absurd ha (by simp)
      · simp at ha
        simp [ha]
    refine removeSafe_append _ _ _ ?_ ?_
    · intro a ha
      split at ha
      · exact absurd ha (by simp)
      · rcases createActs_mem _ _ a ha with h | h | h <;> simp [h]
    refine removeSafe_append _ _ _ ?_ ?_
    · intro a ha
      split at ha
      · exact absurd ha (by simp)
      · simp at ha
        simp [ha]
    exact ⟨by simp, by simp, .inl ⟨_, rfl⟩⟩

/-- Nobody else owns the lab instance. -/
def ownerOk (lab : String) (w : World) (dir : String) : Prop :=
  ∀ d, owner (recorded w) lab = some d → d = dir

/-- Nobody else owns the lab instance, or the process will check it before removing it. -/
def RemoveOk (lab : String) (w : World) (p : Proc) : Prop :=
  ownerOk lab w p.dir ∨
    (removeSafe p.mismatch p.acts ∧ (passed p → removeSafe p.mismatch p.acts.tail))

theorem recorded_clean {w : World} (h : ∀ q, ¬ MidWrite w q) : recorded w = w.file := by
  unfold recorded
  cases hf : w.flock with
  | none => rfl
  | some pid =>
    simp only
    cases hp : w.procs pid with
    | none => rfl
    | some p =>
      cases hph : p.phase with
      | truncated st c => exact absurd ⟨p, st, c, hp, hph⟩ (h pid)
      | _ => simp only [hph]

theorem removeSafe_tail {m : Bool} {a : Act} {rest : List Act} (h : removeSafe m (a :: rest))
    (hn : ∀ n, a ≠ .change (.start n)) (hm : ∀ f c, a ≠ .checkMismatch f c) : removeSafe m rest := by
  rcases h.2.2 with ⟨n, h'⟩ | ⟨f, c, h', -⟩ | ⟨-, h'⟩
  · exact absurd h' (hn n)
  · exact absurd h' (hm f c)
  · exact h'

/-- The owner after a process changed its own lab instance. -/
theorem ownerOk_self {w v : World} {pid : Nat} {p : Proc} {lab : String} (hp : w.procs pid = some p)
    (hl : p.lab = lab) (hch : Change w v (.run pid)) (ho : ownerOk lab w p.dir) : ownerOk lab v p.dir := by
  rcases hch with h | ⟨pid', p', op, rest, he, hp', -, -, -, hrec, -⟩
  · intro d hd
    rw [h] at hd
    exact ho d hd
  · simp only [LabEvent.run.injEq] at he
    subst he
    rw [hp] at hp'
    obtain rfl := Option.some.inj hp'
    intro d hd
    rw [hrec, owner_applyOp, ← hl] at hd
    simp only [ne_eq, not_true_eq_false, if_false] at hd
    split at hd
    · exact absurd hd (by simp)
    · split at hd
      · exact ho d (hl ▸ hd)
      · cases hw : owner (recorded w) p.lab with
        | none =>
          rw [hw] at hd
          exact (Option.some.inj hd).symm
        | some d' =>
          rw [hw] at hd
          rw [← Option.some.inj hd]
          exact ho d' (hl ▸ hw)

theorem removeOk_step {w v : World} {pid : Nat} {p : Proc} {lab : String} (hi : LabInv w)
    (hp : w.procs pid = some p) (hl : p.lab = lab) (hv : v = stepProc w pid p)
    (hch : Change w v (.run pid)) (hcl : CleanCheck w (.run pid)) (hok : RemoveOk lab w p) :
    ∀ q, v.procs pid = some q → RemoveOk lab v q := by
  have hdir : ∀ q, v.procs pid = some q → q.dir = p.dir := by
    intro q hq
    subst hv
    rcases stepProc_shape w pid p with h | h | ⟨q', h, hd, -⟩
    · rw [h, hp] at hq
      rw [Option.some.inj hq]
    · rw [h] at hq
      simp [World.kill, upd_self] at hq
    · rw [h, upd_self] at hq
      rw [← Option.some.inj hq]
      exact hd
  have hown : ownerOk lab w p.dir → ∀ q, v.procs pid = some q → RemoveOk lab v q := by
    intro ho q hq
    refine .inl ?_
    rw [hdir q hq]
    exact ownerOk_self hp hl hch ho
  rcases hok with ho | ⟨hs, hpass⟩
  · exact hown ho
  · have hidle : (∀ op rest, p.acts ≠ .change op :: rest) → p.phase = .idle := by
      intro h
      by_cases hph : p.phase = .idle
      · exact hph
      · obtain ⟨op, rest, ha⟩ := (hi.proc pid p hp).busy hph
        exact absurd ha (h op rest)
    have hkill : v = w.kill pid → ∀ q, v.procs pid = some q → RemoveOk lab v q := by
      intro h q hq
      subst h
      simp [World.kill, upd_self] at hq
    have hput : ∀ q, v.procs = upd w.procs pid (some q) → removeSafe q.mismatch q.acts →
        (passed q → removeSafe q.mismatch q.acts.tail) → ∀ q, v.procs pid = some q → RemoveOk lab v q := by
      intro q h1 h2 h3 q' hq'
      rw [h1, upd_self] at hq'
      obtain rfl := Option.some.inj hq'
      exact .inr ⟨h2, h3⟩
    have hidlepass : ∀ q : Proc, q.phase = .idle → passed q → removeSafe q.mismatch q.acts.tail := by
      intro q hq h
      rcases h with ⟨st, h⟩ | h <;> rw [hq] at h <;> exact absurd h (by simp)
    unfold stepProc at hv
    cases ha : p.acts with
    | nil =>
      rw [ha] at hv
      exact hkill hv
    | cons a rest =>
      rw [ha] at hv hs hpass
      cases a with
      | change op =>
        simp only [List.tail_cons] at hpass
        unfold stepChange at hv
        cases hph : p.phase with
        | idle =>
          rw [hph] at hv
          simp only at hv
          split at hv
          · subst hv
            refine hput { p with phase := .locked } rfl ?_ ?_
            · rw [ha]; exact hs
            · intro h
              simp [passed] at h
          · subst hv
            intro q hq
            rw [hp] at hq
            obtain rfl := Option.some.inj hq
            refine .inr ⟨by rw [ha]; exact hs, ?_⟩
            intro h
            simp [passed, hph] at h
        | locked =>
          rw [hph] at hv
          subst hv
          refine hput { p with phase := .loaded w.file } rfl ?_ ?_
          · rw [ha]; exact hs
          · intro h
            simp [passed] at h
        | loaded st =>
          rw [hph] at hv
          simp only at hv
          have hst : st = recorded w := by
            have h1 := (hi.proc pid p hp).fresh st hph
            have h2 := (hi.proc pid p hp).holds (by rw [hph]; simp)
            rw [recorded_holder h2 hp (by rw [hph]; simp)]
            exact h1
          rcases hs.2.2 with ⟨n, hn⟩ | ⟨f, c, hn, -⟩ | ⟨-, hs'⟩
          · simp only [Act.change.injEq] at hn
            cases hc : (applyOp p.dry p.lab p.dir op st).2 with
            | true =>
              rw [hc] at hv
              subst hv
              refine hput { p with phase := .truncated (applyOp p.dry p.lab p.dir op st).1 true } rfl ?_ ?_
              · rw [ha]; exact hs
              · intro h
                simp [passed] at h
            | false =>
              refine hown ?_
              intro d hd
              have hcf : ¬ ((applyOp p.dry p.lab p.dir op st).2 = true) := by rw [hc]; simp
              rw [conflict_iff] at hcf
              by_cases hdd : d = p.dir
              · exact hdd
              · refine absurd ⟨⟨n, hn⟩, d, ?_, hdd⟩ hcf
                rw [hst, hl]
                exact hd
          · exact absurd hn (by simp)
          · subst hv
            refine hput (p.trunc op st) rfl ?_ ?_
            · show removeSafe p.mismatch p.acts
              rw [ha]; exact hs
            · intro _
              show removeSafe p.mismatch p.acts.tail
              rw [ha]
              exact hs'
        | truncated st c =>
          rw [hph] at hv
          subst hv
          refine hput { p with phase := .written c } rfl ?_ ?_
          · rw [ha]; exact hs
          · intro h
            rw [ha]
            refine hpass ?_
            simp [passed] at h
            exact .inl ⟨st, by rw [hph, h]⟩
        | written c =>
          rw [hph] at hv
          subst hv
          refine hput { p with
            acts := if c then [] else rest
            phase := .idle } rfl ?_ (hidlepass _ rfl)
          cases c with
          | true => trivial
          | false => exact hpass (.inr hph)
      | checkMismatch f c =>
        have h := hidle (by rw [ha]; simp)
        simp only at hv
        have hrec : recorded w = w.file := recorded_clean (hcl p f c rest hp ha)
        cases hm : labDirMismatch p.lab p.dir f c w.file with
        | none =>
          rw [hm] at hv
          exact hkill hv
        | some m =>
          rw [hm] at hv
          simp only at hv
          cases m with
          | false =>
            refine hown ?_
            intro d hd
            rw [hrec, ← hl] at hd
            simp only [owner] at hd
            simp only [labDirMismatch] at hm
            cases hlk : w.file.lookup p.lab with
            | none =>
              rw [hlk] at hd
              exact absurd hd (by simp)
            | some e =>
              rw [hlk] at hd hm
              simp only [Option.map_some, Option.some.injEq] at hd
              simp only at hm
              by_cases hde : e.dir = p.dir
              · rw [← hd, hde]
              · have : (e.dir == p.dir) = false := by simp [hde]
                rw [this] at hm
                cases f <;> cases c <;> simp at hm
          | true =>
            subst hv
            refine hput { p with
              acts := rest
              mismatch := true } rfl ?_ (hidlepass _ h)
            rcases hs.2.2 with ⟨n, hn⟩ | ⟨f', c', hn, hs'⟩ | ⟨hn, -⟩
            · exact absurd hn (by simp)
            · exact hs'
            · exact absurd rfl (hn f c)
      | removeUnlessMismatch =>
        have h := hidle (by rw [ha]; simp)
        subst hv
        refine hput { p with acts := if p.mismatch then rest else .change .remove :: rest } rfl ?_ (hidlepass _ h)
        have hm : p.mismatch = true := hs.2.1 rfl
        have := removeSafe_tail hs (by simp) (by simp)
        simp only [hm, if_true] at this ⊢
        exact this
      | checkExisting =>
        have h := hidle (by rw [ha]; simp)
        simp only at hv
        split at hv
        · exact hkill hv
        · subst hv
          exact hput { p with acts := rest } rfl (removeSafe_tail hs (by simp) (by simp)) (hidlepass _ h)
      | unlockUser =>
        have h := hidle (by rw [ha]; simp)
        simp only at hv
        have := removeSafe_tail hs (by simp) (by simp)
        split at hv
        · subst hv
          exact hput { p with acts := .change .logLine :: rest } rfl ⟨by simp, by simp, .inr (.inr ⟨by simp, this⟩)⟩
            (hidlepass _ h)
        · subst hv
          exact hput { p with acts := rest } rfl this (hidlepass _ h)
      | checkWriteable =>
        have h := hidle (by rw [ha]; simp)
        simp only at hv
        split at hv
        · exact hkill hv
        · subst hv
          exact hput { p with acts := rest } rfl (removeSafe_tail hs (by simp) (by simp)) (hidlepass _ h)
      | checkInstance =>
        have h := hidle (by rw [ha]; simp)
        simp only at hv
        split at hv
        · exact hkill hv
        · subst hv
          exact hput { p with acts := rest } rfl (removeSafe_tail hs (by simp) (by simp)) (hidlepass _ h)
      | writeFiles | lockDir | startWork | touchLock | stopWork | unlockDir =>
        have h := hidle (by rw [ha]; simp)
        subst hv
        exact hput { p with acts := rest } rfl (removeSafe_tail hs (by simp) (by simp)) (hidlepass _ h)

/-- Commands working on one lab instance do not overlap. -/
structure RemoveInv (lab : String) (w : World) : Prop where
  one : ∀ i j p q, w.procs i = some p → w.procs j = some q → p.lab = lab → q.lab = lab → i = j
  proc : ∀ pid p, w.procs pid = some p → p.lab = lab → RemoveOk lab w p

theorem removeOk_same {lab : String} {w v : World} {p : Proc} (h : owner (recorded v) lab = owner (recorded w) lab)
    (hok : RemoveOk lab w p) : RemoveOk lab v p := by
  rcases hok with h' | h'
  · refine .inl ?_
    intro d hd
    rw [h] at hd
    exact h' d hd
  · exact .inr h'

theorem removeInv_step {w : World} {e : LabEvent} {lab : String} (hi : LabInv w) (hs : RemoveInv lab w)
    (hr : ¬ IsReset e) (hno : NoOverlapLab lab w e) (hcl : CleanCheck w e) : RemoveInv lab (labStep w e) := by
  cases e with
  | spawn c dir l =>
    have hch := labStep_change (e := .spawn c dir l) hi hr (by simp [CrashMidWrite])
    have hrec : recorded (labStep w (.spawn c dir l)) = recorded w := by
      rcases hch with h | ⟨pid, p, op, rest, he, -⟩
      · exact h
      · exact absurd he (by simp)
    refine ⟨?_, ?_⟩
    · intro i j p q hip hjq hpl hql
      simp only [labStep] at hip hjq
      by_cases hin : i = w.next
      · by_cases hjn : j = w.next
        · rw [hin, hjn]
        · rw [upd_ne _ _ hjn] at hjq
          rw [hin, upd_self] at hip
          have hll : l = lab := by
            have := Option.some.inj hip
            rw [← this] at hpl
            exact hpl
          exact absurd hql (hno hll j q hjq)
      · rw [upd_ne _ _ hin] at hip
        by_cases hjn : j = w.next
        · rw [hjn, upd_self] at hjq
          have hll : l = lab := by
            have := Option.some.inj hjq
            rw [← this] at hql
            exact hql
          exact absurd hpl (hno hll i p hip)
        · rw [upd_ne _ _ hjn] at hjq
          exact hs.one i j p q hip hjq hpl hql
    · intro k r hr' hl
      simp only [labStep] at hr'
      by_cases hk : k = w.next
      · subst hk
        rw [upd_self] at hr'
        obtain rfl := Option.some.inj hr'
        refine .inr ⟨removeSafe_acts c, ?_⟩
        intro h
        simp [passed] at h
      · rw [upd_ne _ _ hk] at hr'
        exact removeOk_same (by rw [hrec]) (hs.proc k r hr' hl)
  | run pid =>
    cases hp : w.procs pid with
    | none =>
      have : labStep w (.run pid) = w := by simp [labStep, hp]
      rw [this]
      exact hs
    | some p =>
      have hch := labStep_change (e := .run pid) hi hr (by simp [CrashMidWrite])
      have hv : labStep w (.run pid) = stepProc w pid p := by simp [labStep, hp]
      have hother : ∀ k, k ≠ pid → (labStep w (.run pid)).procs k = w.procs k := by
        intro k hk
        rw [hv]
        rcases stepProc_shape w pid p with h | h | ⟨q', h, -, -⟩
        · rw [h]
        · rw [h]
          exact upd_ne _ _ hk
        · rw [h]
          exact upd_ne _ _ hk
      have hself : ∀ q, (labStep w (.run pid)).procs pid = some q → q.lab = p.lab := by
        intro q hq
        rw [hv] at hq
        rcases stepProc_shape w pid p with h | h | ⟨q', h, -, hlab⟩
        · rw [h, hp] at hq
          rw [Option.some.inj hq]
        · rw [h] at hq
          simp [World.kill, upd_self] at hq
        · rw [h, upd_self] at hq
          rw [← Option.some.inj hq, hlab]
      have hback : ∀ k q, (labStep w (.run pid)).procs k = some q → q.lab = lab →
          ∃ q', w.procs k = some q' ∧ q'.lab = lab := by
        intro k q hq hql
        by_cases hk : k = pid
        · subst hk
          exact ⟨p, hp, by rw [← hself q hq]; exact hql⟩
        · rw [hother k hk] at hq
          exact ⟨q, hq, hql⟩
      refine ⟨?_, ?_⟩
      · intro i j a b hia hjb hal hbl
        obtain ⟨a', ha', hal'⟩ := hback i a hia hal
        obtain ⟨b', hb', hbl'⟩ := hback j b hjb hbl
        exact hs.one i j a' b' ha' hb' hal' hbl'
      · intro k r hr' hl'
        by_cases hk : k = pid
        · subst hk
          have hpl : p.lab = lab := by rw [← hself r hr']; exact hl'
          exact removeOk_step hi hp hpl hv hch hcl (hs.proc k p hp hpl) r hr'
        · rw [hother k hk] at hr'
          have hpl : p.lab ≠ lab := by
            intro h
            exact hk (hs.one k pid r p hr' hp hl' h)
          refine removeOk_same ?_ (hs.proc k r hr' hl')
          rcases hch with h | ⟨pid', p', op, rest, he, hp', -, -, -, hrec, -⟩
          · rw [h]
          · simp only [LabEvent.run.injEq] at he
            subst he
            rw [hp] at hp'
            obtain rfl := Option.some.inj hp'
            rw [hrec, owner_applyOp, if_pos (Ne.symm hpl)]
  | crash pid =>
    cases hp : w.procs pid with
    | none =>
      have : labStep w (.crash pid) = w := by simp [labStep, hp]
      rw [this]
      exact hs
    | some p =>
      have hv : labStep w (.crash pid) = w.kill pid := by simp [labStep, hp]
      have hback : ∀ k q, (labStep w (.crash pid)).procs k = some q → w.procs k = some q := by
        intro k q hq
        rw [hv] at hq
        simp only [World.kill, upd] at hq
        split at hq
        · exact absurd hq (by simp)
        · exact hq
      refine ⟨fun i j a b hia hjb => hs.one i j a b (hback i a hia) (hback j b hjb), ?_⟩
      intro k r hr' hl'
      have hok := hs.proc k r (hback k r hr') hl'
      by_cases hm : MidWrite w pid
      · obtain ⟨p', st, c, hp', hph⟩ := hm
        refine .inl ?_
        intro d hd
        rw [hv, recorded_kill_trunc hi hp' hph] at hd
        simp [owner] at hd
      · have := labStep_change (e := .crash pid) hi hr hm
        rcases this with h | ⟨pid', p', op, rest, he, -⟩
        · exact removeOk_same (by rw [h]) hok
        · exact absurd he (by simp)
  | reset => exact absurd trivial hr

theorem removeInv_run {lab : String} (h : List LabEvent) : ∀ (w : World), LabInv w → RemoveInv lab w →
    Along (fun w e => ¬ IsReset e ∧ NoOverlapLab lab w e ∧ CleanCheck w e) w h →
    LabInv (labRun w h) ∧ RemoveInv lab (labRun w h) := by
  induction h with
  | nil => intro w hi hs _; exact ⟨hi, hs⟩
  | cons e rest ih =>
    intro w hi hs hal
    exact ih _ (labStep_inv hi hal.1.1) (removeInv_step hi hs hal.1.1 hal.1.2.1 hal.1.2.2) hal.2

/-- **C36.**  When commands working on a lab instance do not overlap and `netlab down` does not read the status
file while it is empty, a lab instance is removed from the status file only by a command executed in the
directory that owns it -- whatever happens to other instances and wherever the commands crash. -/
theorem C36_removed_by_owner (h : List LabEvent) (e : LabEvent) (lab dir d : String)
    (ha : Along (fun w e => ¬ IsReset e ∧ NoOverlapLab lab w e ∧ CleanCheck w e) .init h)
    (hr : Removes lab dir (labRun .init h) e) (ho : owner (labRun .init h).file lab = some d) : d = dir := by
  obtain ⟨hi, hs⟩ := removeInv_run h .init labInv_init
    ⟨fun i j p q hp => by simp [World.init] at hp, fun pid p hp => by simp [World.init] at hp⟩ ha
  cases e with
  | run pid =>
    obtain ⟨p, rest, st, hp, hpl, hpd, hpa, hph⟩ := hr
    rcases hs.proc pid p hp hpl with hok | ⟨hsafe, -⟩
    · have hrec : recorded (labRun .init h) = (labRun .init h).file :=
        recorded_holder ((hi.proc pid p hp).holds (by rw [hph]; simp)) hp (by rw [hph]; simp)
      rw [← hrec] at ho
      rw [hok d ho]
      exact hpd
    · rw [hpa] at hsafe
      exact absurd rfl hsafe.1
  | spawn c d' l => exact absurd hr (by simp [Removes])
  | crash pid => exact absurd hr (by simp [Removes])
  | reset => exact absurd hr (by simp [Removes])

end Netlab
