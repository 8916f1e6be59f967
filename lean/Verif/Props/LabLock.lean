import Verif.Props.LabStatus

namespace Netlab

open Netlab.Spec

/-- The actions keep "a started lab is locked", and write no file into the directory of a started lab, when they
start with the given lock and lab state. -/
def Good : Bool → Bool → List Act → Prop
  | _, _, [] => True
  | l, r, .checkExisting :: t => l = false → Good l r t
  | l, r, .checkWriteable :: t => l = false → Good l r t
  | l, r, .writeFiles :: t => r = false ∧ Good l r t
  | _, r, .lockDir :: t => Good true r t
  | l, _, .startWork :: t => l = true ∧ Good l true t
  | l, _, .stopWork :: t => Good l false t
  | _, r, .unlockDir :: t => r = false ∧ Good false r t
  | _, _, .unlockUser :: _ => False
  | l, r, .change _ :: t => Good l r t
  | l, r, .checkInstance :: t => Good l r t
  | l, r, .touchLock :: t => Good l r t
  | l, r, .checkMismatch _ _ :: t => Good l r t
  | l, r, .removeUnlessMismatch :: t => Good l r t

theorem good_create (l r : Bool) (n : Nat) (b : List Act) (hlr : l = false → r = false) (hb : Good l r b) :
    Good l r (createActs false n ++ b) := by
  induction n generalizing b with
  | zero => exact hb
  | succ n ih =>
    simp only [createActs, List.append_assoc, List.cons_append, List.nil_append]
    exact ih _ (fun h => ⟨hlr h, hb⟩)

theorem good_providers (r : Bool) (ps : List String) (b : List Act) (hb : ∀ r', Good true r' b) :
    Good true r (providersActs false ps ++ b) := by
  induction ps generalizing r with
  | nil => exact hb r
  | cons p rest ih =>
    simp only [providersActs, providerActs, Bool.false_eq_true, if_false, List.cons_append, List.nil_append]
    exact ⟨rfl, ih true⟩

theorem good_providers_dry (l r : Bool) (ps : List String) (b : List Act) (hb : Good l r b) :
    Good l r (providersActs true ps ++ b) := by
  induction ps with
  | nil => exact hb
  | cons p rest ih => exact ih

theorem good_stop (l r : Bool) (ps : List String) (b : List Act) (hb : Good l r b) :
    Good l r (stopActs ps ++ b) := by
  induction ps with
  | nil => exact hb
  | cons p rest ih => exact ih

/-- The end of `netlab up`. -/
theorem good_up_end (r : Bool) (o : UpOpts) (hd : o.dry = false) (habort : o.abort = true → r = false) :
    Good true r
      (if o.abort then providerActs o.dry true "external"
       else
         providersActs o.dry o.providers ++
         (if o.dry then []
          else [.change (.status "deploying initial configuration"),
                .change (.status "initial configuration complete"),
                .change (.status "started")]) ++
         [.touchLock]) := by
  by_cases ha : o.abort = true
  · rw [if_pos ha]
    have := habort ha
    subst this
    simp [providerActs, Good]
  · rw [if_neg ha, hd, List.append_assoc]
    exact good_providers r o.providers _ (fun r' => trivial)

theorem good_up_end_dry (l r : Bool) (o : UpOpts) (hd : o.dry = true) (habort : o.abort = true → r = false) :
    Good l r
      (if o.abort then providerActs o.dry true "external"
       else
         providersActs o.dry o.providers ++
         (if o.dry then []
          else [.change (.status "deploying initial configuration"),
                .change (.status "initial configuration complete"),
                .change (.status "started")]) ++
         [.touchLock]) := by
  by_cases ha : o.abort = true
  · rw [if_pos ha]
    have := habort ha
    subst this
    simp [providerActs, Good]
  · rw [if_neg ha, hd, List.append_assoc]
    exact good_providers_dry l r o.providers _ trivial

theorem good_acts (c : Cmd) (dir lab : String) (hc : Polite (.spawn c dir lab)) (l r : Bool)
    (hlr : l = false → r = false) : Good l r c.acts := by
  cases c with
  | create u n =>
    have hu : u = false := hc
    subst hu
    have := good_create l r n [] hlr trivial
    rwa [List.append_nil] at this
  | initial => simp [Cmd.acts, initialActs, Good]
  | down o =>
    simp only [Cmd.acts, downActs, Good]
    by_cases hd : o.dry = true
    · rw [if_pos hd]
      simp [downEnd, Good]
    · rw [if_neg hd]
      simp only [Good]
      rw [List.append_assoc]
      have hend : Good l r (stopActs o.providers ++
          (if o.stopOk then .stopWork :: downEnd false else if o.force1 then downEnd false else [])) := by
        refine good_stop _ _ _ _ ?_
        by_cases hs : o.stopOk = true
        · rw [if_pos hs]
          simp [downEnd, Good]
        · rw [if_neg hs, if_neg (fun hf => hs (hc hf))]
          trivial
      split
      · exact hend
      · exact hend
  | up o =>
    obtain ⟨hu, hab⟩ := hc
    simp only [Cmd.acts, upActs, List.append_assoc, hu]
    have hassoc : ∀ a b c : List Act, a ++ (b ++ c) = (a ++ b) ++ c := fun a b c => (List.append_assoc a b c).symm
    rw [hassoc (providersActs o.dry o.providers)]
    cases hd : o.dry with
    | true =>
      have hend := good_up_end_dry l r o hd
      rw [hd] at hend
      simp only [Bool.or_true, if_true, List.nil_append, List.append_nil, List.singleton_append] at hend ⊢
      cases hs : o.snapshot with
      | true =>
        simp only [if_true, List.nil_append, Good]
        exact hend (fun h => absurd (hab h) (by rw [hs]; simp))
      | false =>
        simp only [Bool.false_eq_true, if_false, createActs, List.append_assoc, List.cons_append, List.nil_append]
        refine good_create l r o.outputs _ hlr ?_
        intro hl
        exact ⟨hlr hl, hend (fun _ => hlr hl)⟩
    | false =>
      have hend := good_up_end r o hd
      rw [hd] at hend
      simp only [Bool.or_false, Bool.false_eq_true, if_false, List.singleton_append] at hend ⊢
      cases hs : o.snapshot with
      | true =>
        simp only [if_true, List.nil_append, Good]
        exact hend (fun h => absurd (hab h) (by rw [hs]; simp))
      | false =>
        simp only [Bool.false_eq_true, if_false, List.singleton_append]
        intro hl
        refine good_create l r (o.outputs + 1) _ hlr ?_
        simp only [Good]
        exact hend (fun _ => hlr hl)

/-- A started lab is locked, and no live command will change that. -/
structure LockInv (w : World) : Prop where
  one : ∀ i j p q, w.procs i = some p → w.procs j = some q → p.dir = q.dir → i = j
  lock : ∀ d, (w.running d).isSome = true → w.locked d = true
  proc : ∀ pid p, w.procs pid = some p → Good (w.locked p.dir) (w.running p.dir).isSome p.acts

/-- The step of a process: its new state, and the lock and lab state of its directory. -/
theorem good_step {w : World} {pid : Nat} {p : Proc} (hp : w.procs pid = some p)
    (hlr : (w.running p.dir).isSome = true → w.locked p.dir = true)
    (hg : Good (w.locked p.dir) (w.running p.dir).isSome p.acts) :
    let v := stepProc w pid p
    (∀ d, d ≠ p.dir → v.locked d = w.locked d ∧ v.running d = w.running d) ∧
    ((v.running p.dir).isSome = true → v.locked p.dir = true) ∧
    (∀ q, v.procs pid = some q → Good (v.locked p.dir) (v.running p.dir).isSome q.acts) := by
  intro v
  have hv : v = stepProc w pid p := rfl
  clear_value v
  have hkill : v = w.kill pid → (∀ d, d ≠ p.dir → v.locked d = w.locked d ∧ v.running d = w.running d) ∧
      ((v.running p.dir).isSome = true → v.locked p.dir = true) ∧
      (∀ q, v.procs pid = some q → Good (v.locked p.dir) (v.running p.dir).isSome q.acts) := by
    intro h
    subst h
    refine ⟨fun _ _ => ⟨rfl, rfl⟩, hlr, ?_⟩
    intro q hq
    simp [World.kill, upd_self] at hq
  have hput : ∀ q : Proc, v.procs = upd w.procs pid (some q) →
      (∀ d, d ≠ p.dir → v.locked d = w.locked d ∧ v.running d = w.running d) →
      ((v.running p.dir).isSome = true → v.locked p.dir = true) →
      Good (v.locked p.dir) (v.running p.dir).isSome q.acts →
      (∀ d, d ≠ p.dir → v.locked d = w.locked d ∧ v.running d = w.running d) ∧
      ((v.running p.dir).isSome = true → v.locked p.dir = true) ∧
      (∀ q, v.procs pid = some q → Good (v.locked p.dir) (v.running p.dir).isSome q.acts) := by
    intro q h1 h2 h3 h4
    refine ⟨h2, h3, ?_⟩
    intro q' hq'
    rw [h1, upd_self] at hq'
    obtain rfl := Option.some.inj hq'
    exact h4
  have hsame : ∀ d, d ≠ p.dir → w.locked d = w.locked d ∧ w.running d = w.running d := fun _ _ => ⟨rfl, rfl⟩
  unfold stepProc at hv
  cases ha : p.acts with
  | nil =>
    rw [ha] at hv
    exact hkill hv
  | cons a rest =>
    rw [ha] at hv hg
    cases a with
    | change op =>
      simp only [Good] at hg
      unfold stepChange at hv
      cases hph : p.phase with
      | idle =>
        rw [hph] at hv
        simp only at hv
        split at hv
        · subst hv
          refine hput { p with phase := .locked } rfl hsame hlr ?_
          simp only [ha, Good]
          exact hg
        · subst hv
          refine ⟨hsame, hlr, ?_⟩
          intro q hq
          rw [hp] at hq
          obtain rfl := Option.some.inj hq
          simp only [ha, Good]
          exact hg
      | locked =>
        rw [hph] at hv
        subst hv
        refine hput { p with phase := .loaded w.file } rfl hsame hlr ?_
        simp only [ha, Good]
        exact hg
      | loaded st =>
        rw [hph] at hv
        subst hv
        refine hput (p.trunc op st) rfl hsame hlr ?_
        simp only [Proc.trunc, ha, Good]
        exact hg
      | truncated st c =>
        rw [hph] at hv
        subst hv
        refine hput { p with phase := .written c } rfl hsame hlr ?_
        simp only [ha, Good]
        exact hg
      | written c =>
        rw [hph] at hv
        subst hv
        refine hput { p with
          acts := if c then [] else rest
          phase := .idle } rfl hsame hlr ?_
        cases c with
        | true => trivial
        | false => exact hg
    | checkExisting =>
      simp only at hv
      split at hv
      · exact hkill hv
      · rename_i hl
        subst hv
        exact hput { p with acts := rest } rfl hsame hlr (hg (by simpa using hl))
    | unlockUser => exact absurd hg (by simp [Good])
    | checkWriteable =>
      simp only at hv
      split at hv
      · exact hkill hv
      · rename_i hl
        subst hv
        exact hput { p with acts := rest } rfl hsame hlr (hg (by simpa using hl))
    | writeFiles =>
      subst hv
      exact hput { p with acts := rest } rfl hsame hlr hg.2
    | checkInstance =>
      simp only at hv
      split at hv
      · exact hkill hv
      · subst hv
        exact hput { p with acts := rest } rfl hsame hlr hg
    | lockDir =>
      subst hv
      refine hput { p with acts := rest } rfl ?_ ?_ ?_
      · intro d hd
        exact ⟨upd_ne _ _ hd, rfl⟩
      · intro _
        exact upd_self _ _ _
      · have : (upd w.locked p.dir true) p.dir = true := upd_self _ _ _
        simp only [World.put, this]
        exact hg
    | startWork =>
      subst hv
      refine hput { p with acts := rest } rfl ?_ ?_ ?_
      · intro d hd
        exact ⟨rfl, upd_ne _ _ hd⟩
      · intro _
        exact hg.1
      · have : (upd w.running p.dir (some p.lab)) p.dir = some p.lab := upd_self _ _ _
        simp only [World.put, this, Option.isSome_some]
        exact hg.2
    | touchLock =>
      subst hv
      exact hput { p with acts := rest } rfl hsame hlr hg
    | checkMismatch f c =>
      simp only at hv
      cases hm : labDirMismatch p.lab p.dir f c w.file with
      | none =>
        rw [hm] at hv
        exact hkill hv
      | some m =>
        rw [hm] at hv
        subst hv
        exact hput { p with
          acts := rest
          mismatch := m } rfl hsame hlr hg
    | stopWork =>
      subst hv
      have hr : (upd w.running p.dir none) p.dir = none := upd_self _ _ _
      refine hput { p with acts := rest } rfl ?_ ?_ ?_
      · intro d hd
        exact ⟨rfl, upd_ne _ _ hd⟩
      · intro h
        simp only [World.put, hr] at h
        exact absurd h (by simp)
      · simp only [World.put, hr, Option.isSome_none]
        exact hg
    | removeUnlessMismatch =>
      subst hv
      refine hput { p with acts := if p.mismatch then rest else .change .remove :: rest } rfl hsame hlr ?_
      simp only
      split
      · exact hg
      · exact hg
    | unlockDir =>
      subst hv
      refine hput { p with acts := rest } rfl ?_ ?_ ?_
      · intro d hd
        exact ⟨upd_ne _ _ hd, rfl⟩
      · intro h
        simp only [Good] at hg
        simp only [World.put] at h
        rw [hg.1] at h
        exact absurd h (by simp)
      · have : (upd w.locked p.dir false) p.dir = false := upd_self _ _ _
        simp only [World.put, this]
        exact hg.2

theorem lockInv_step {w : World} {e : LabEvent} (hs : LockInv w) (hno : NoOverlapDir w e) (hpol : Polite e) :
    LockInv (labStep w e) := by
  have hbool : ∀ d, w.locked d = false → (w.running d).isSome = false := by
    intro d hd
    cases hr : (w.running d).isSome with
    | false => rfl
    | true =>
      rw [hs.lock d hr] at hd
      exact absurd hd (by simp)
  cases e with
  | spawn c dir l =>
    refine ⟨?_, hs.lock, ?_⟩
    · intro i j p q hip hjq hd
      simp only [labStep] at hip hjq
      by_cases hin : i = w.next
      · by_cases hjn : j = w.next
        · rw [hin, hjn]
        · rw [upd_ne _ _ hjn] at hjq
          rw [hin, upd_self] at hip
          have hdd : p.dir = dir := by rw [← Option.some.inj hip]
          exact absurd (hd.symm.trans hdd) (hno j q hjq)
      · rw [upd_ne _ _ hin] at hip
        by_cases hjn : j = w.next
        · rw [hjn, upd_self] at hjq
          have hdd : q.dir = dir := by rw [← Option.some.inj hjq]
          exact absurd (hd.trans hdd) (hno i p hip)
        · rw [upd_ne _ _ hjn] at hjq
          exact hs.one i j p q hip hjq hd
    · intro k r hr
      simp only [labStep] at hr
      by_cases hk : k = w.next
      · subst hk
        rw [upd_self] at hr
        obtain rfl := Option.some.inj hr
        exact good_acts c dir l hpol _ _ (hbool dir)
      · rw [upd_ne _ _ hk] at hr
        exact hs.proc k r hr
  | run pid =>
    cases hp : w.procs pid with
    | none =>
      have : labStep w (.run pid) = w := by simp [labStep, hp]
      rw [this]
      exact hs
    | some p =>
      have hv : labStep w (.run pid) = stepProc w pid p := by simp [labStep, hp]
      obtain ⟨h1, h2, h3⟩ := good_step hp (hs.lock p.dir) (hs.proc pid p hp)
      rw [hv]
      have hother : ∀ k, k ≠ pid → (stepProc w pid p).procs k = w.procs k := by
        intro k hk
        rcases stepProc_shape w pid p with h | h | ⟨q', h, -, -⟩
        · rw [h]
        · rw [h]
          exact upd_ne _ _ hk
        · rw [h]
          exact upd_ne _ _ hk
      have hself : ∀ q, (stepProc w pid p).procs pid = some q → q.dir = p.dir := by
        intro q hq
        rcases stepProc_shape w pid p with h | h | ⟨q', h, hdir, -⟩
        · rw [h, hp] at hq
          rw [Option.some.inj hq]
        · rw [h] at hq
          simp [World.kill, upd_self] at hq
        · rw [h, upd_self] at hq
          rw [← Option.some.inj hq, hdir]
      have hback : ∀ k q, (stepProc w pid p).procs k = some q → ∃ q', w.procs k = some q' ∧ q'.dir = q.dir := by
        intro k q hq
        by_cases hk : k = pid
        · subst hk
          exact ⟨p, hp, (hself q hq).symm⟩
        · rw [hother k hk] at hq
          exact ⟨q, hq, rfl⟩
      refine ⟨?_, ?_, ?_⟩
      · intro i j a b hia hjb hd
        obtain ⟨a', ha', had⟩ := hback i a hia
        obtain ⟨b', hb', hbd⟩ := hback j b hjb
        exact hs.one i j a' b' ha' hb' (by rw [had, hbd, hd])
      · intro d hd
        by_cases hdp : d = p.dir
        · subst hdp
          exact h2 hd
        · rw [(h1 d hdp).2] at hd
          rw [(h1 d hdp).1]
          exact hs.lock d hd
      · intro k r hr
        by_cases hk : k = pid
        · subst hk
          rw [hself r hr]
          exact h3 r hr
        · rw [hother k hk] at hr
          have hne : r.dir ≠ p.dir := by
            intro h
            exact hk (hs.one k pid r p hr hp h)
          rw [(h1 _ hne).1, (h1 _ hne).2]
          exact hs.proc k r hr
  | crash pid =>
    cases hp : w.procs pid with
    | none =>
      have : labStep w (.crash pid) = w := by simp [labStep, hp]
      rw [this]
      exact hs
    | some p =>
      have hv : labStep w (.crash pid) = w.kill pid := by simp [labStep, hp]
      have hback : ∀ k q, (w.kill pid).procs k = some q → w.procs k = some q := by
        intro k q hq
        simp only [World.kill, upd] at hq
        split at hq
        · exact absurd hq (by simp)
        · exact hq
      rw [hv]
      exact ⟨fun i j a b hia hjb => hs.one i j a b (hback i a hia) (hback j b hjb), hs.lock,
        fun k r hr => hs.proc k r (hback k r hr)⟩
  | reset => exact ⟨hs.one, hs.lock, hs.proc⟩

theorem lockInv_run (h : List LabEvent) : ∀ (w : World), LockInv w →
    Along (fun w e => NoOverlapDir w e ∧ Polite e) w h → LockInv (labRun w h) := by
  induction h with
  | nil => intro w hs _; exact hs
  | cons e rest ih =>
    intro w hs hal
    exact ih _ (lockInv_step hs hal.1.1 hal.1.2) hal.2

theorem lockInv_init : LockInv World.init :=
  ⟨fun i j p q hp => by simp [World.init] at hp, fun d hd => by simp [World.init] at hd,
    fun pid p hp => by simp [World.init] at hp⟩

/-- **C37.**  In every history of commands in which commands executed in the same directory do not overlap and the
user does not override the protection, wherever commands crash, a directory with a started lab is locked. -/
theorem C37_started_lab_is_locked (h : List LabEvent) (d lab : String)
    (ha : Along (fun w e => NoOverlapDir w e ∧ Polite e) .init h)
    (hr : (labRun .init h).running d = some lab) : (labRun .init h).locked d = true :=
  (lockInv_run h .init lockInv_init ha).lock d (by rw [hr]; rfl)

theorem conf_step {w : World} {pid : Nat} {p : Proc} {d : String}
    (h : ∀ rest, p.acts = .writeFiles :: rest → p.dir ≠ d) : (stepProc w pid p).conf d = w.conf d := by
  unfold stepProc
  cases ha : p.acts with
  | nil => rfl
  | cons a rest =>
    cases a with
    | writeFiles =>
      have := h rest ha
      exact upd_ne _ _ (Ne.symm this)
    | change op =>
      simp only
      unfold stepChange
      repeat' split
      all_goals rfl
    | checkExisting => simp only; split <;> rfl
    | unlockUser => simp only; split <;> rfl
    | checkWriteable => simp only; split <;> rfl
    | checkInstance => simp only; split <;> rfl
    | checkMismatch f c => simp only; split <;> rfl
    | lockDir => rfl
    | startWork => rfl
    | touchLock => rfl
    | stopWork => rfl
    | removeUnlessMismatch => rfl
    | unlockDir => rfl

/-- **C37.**  In such a history, the next step of any command, or a crash, leaves the lab files in a directory
with a started lab as they are. -/
theorem C37_files_protected (h : List LabEvent) (e : LabEvent) (d lab : String)
    (ha : Along (fun w e => NoOverlapDir w e ∧ Polite e) .init h)
    (hr : (labRun .init h).running d = some lab) :
    (labStep (labRun .init h) e).conf d = (labRun .init h).conf d := by
  have hs := lockInv_run h .init lockInv_init ha
  generalize labRun .init h = w at *
  cases e with
  | run pid =>
    simp only [labStep]
    cases hp : w.procs pid with
    | none => rfl
    | some p =>
      refine conf_step ?_
      intro rest hpa hd
      have := hs.proc pid p hp
      rw [hpa, hd] at this
      simp only [Good] at this
      rw [hr] at this
      exact absurd this.1 (by simp)
  | spawn c d' l => rfl
  | crash pid =>
    simp only [labStep]
    cases w.procs pid <;> rfl
  | reset => rfl

/-! ### Concrete histories -/

/-- Eighty steps are more than any of the commands below needs. -/
def finish (pid : Nat) : List LabEvent := List.replicate 80 (.run pid)

def upCmd : Cmd := .up ⟨false, false, false, 3, "lab", ["clab"], false⟩
def upSnapshot : Cmd := .up ⟨true, false, false, 3, "lab", ["clab"], false⟩
def downCmd : Cmd := .down ⟨false, false, false, false, true, false, ["clab"]⟩
def downDry : Cmd := .down ⟨true, false, false, false, true, false, ["clab"]⟩

/-- Boolean versions of the conditions, used to check the concrete histories. -/
def midWriteB (w : World) (pid : Nat) : Bool :=
  match w.procs pid with
  | some p => match p.phase with
    | .truncated _ _ => true
    | _ => false
  | none => false

def removesB (lab : String) (w : World) (pid : Nat) : Bool :=
  match w.procs pid with
  | some p => p.lab == lab && (match p.phase with
      | .loaded _ => true
      | _ => false) && (match p.acts with
      | .change .remove :: _ => true
      | _ => false)
  | none => false

def calmB (lab : String) (w : World) : LabEvent → Bool
  | .reset => false
  | .crash pid => !midWriteB w pid
  | .run pid => !removesB lab w pid
  | .spawn _ _ _ => true

def alongB (P : World → LabEvent → Bool) (w : World) : List LabEvent → Bool
  | [] => true
  | e :: rest => P w e && alongB P (labStep w e) rest

theorem along_of {P : World → LabEvent → Prop} {B : World → LabEvent → Bool} (h : ∀ w e, B w e = true → P w e)
    (l : List LabEvent) : ∀ w, alongB B w l = true → Along P w l := by
  induction l with
  | nil => intro _ _; trivial
  | cons e rest ih =>
    intro w hb
    simp only [alongB, Bool.and_eq_true] at hb
    exact ⟨h w e hb.1, ih _ hb.2⟩

theorem calm_of (lab : String) (w : World) (e : LabEvent) (h : calmB lab w e = true) :
    ¬ IsReset e ∧ ¬ CrashMidWrite w e ∧ ∀ dir, ¬ Removes lab dir w e := by
  cases e with
  | reset => exact absurd h (by simp [calmB])
  | spawn c d l => simp [IsReset, CrashMidWrite, Removes]
  | crash pid =>
    refine ⟨by simp [IsReset], ?_, by simp [Removes]⟩
    rintro ⟨p, st, c, hp, hph⟩
    simp [calmB, midWriteB, hp, hph] at h
  | run pid =>
    refine ⟨by simp [IsReset], by simp [CrashMidWrite], ?_⟩
    rintro dir ⟨p, rest, st, hp, hl, hd, ha, hph⟩
    simp [calmB, removesB, hp, hph, ha, hl] at h

/-- The hypotheses of `C36_one_directory` and `C36_owner_kept` are met by two directories racing for one lab
instance: both read the status file before any of them registers the instance, the first one crashes after its
workload has been started, and the second one is turned away. -/
example :
    let h := [.spawn upCmd "/a" "x", .spawn upCmd "/b" "x"] ++ List.replicate 10 (.run 0) ++
      List.replicate 10 (.run 1) ++ List.replicate 23 (.run 0) ++ [.crash 0] ++ finish 1
    Along (fun w e => ¬ IsReset e ∧ ¬ CrashMidWrite w e ∧ ∀ dir, ¬ Removes "x" dir w e) .init h ∧
      (labRun .init h).running "/a" = some "x" ∧ (labRun .init h).running "/b" = none ∧
      owner (labRun .init h).file "x" = some "/a" ∧ (labRun .init h).flock = none ∧
      (labRun .init h).locked "/b" = false := by
  refine ⟨along_of (calm_of "x") _ _ ?_, ?_, ?_, ?_, ?_, ?_⟩ <;> decide +kernel

/-- Boolean versions of the remaining conditions. -/
def isResetB : LabEvent → Bool
  | .reset => true
  | _ => false

def noOverlapB (sel : Proc → Bool) (w : World) : Bool :=
  (List.range w.next).all (fun k => match w.procs k with
    | some p => !sel p
    | none => true)

def politeB : LabEvent → Bool
  | .spawn (.up o) _ _ => !o.unlock && (!o.abort || !o.snapshot)
  | .spawn (.create u _) _ _ => !u
  | .spawn (.down o) _ _ => !o.force1 || o.stopOk
  | _ => true

def dirB (w : World) (e : LabEvent) : Bool :=
  (match e with
   | .spawn _ d _ => noOverlapB (fun p => p.dir == d) w
   | _ => true) && politeB e

def labB (lab : String) (w : World) (e : LabEvent) : Bool :=
  !isResetB e &&
  (match e with
   | .spawn _ _ l => l != lab || noOverlapB (fun p => p.lab == lab) w
   | .run _ => (List.range w.next).all (fun k => !midWriteB w k) ||
      (match e with
       | .run pid => match w.procs pid with
         | some p => match p.acts with
           | .checkMismatch _ _ :: _ => false
           | _ => true
         | none => true
       | _ => true)
   | _ => true)

theorem noOverlap_of {sel : Proc → Bool} {w : World} (hi : LabInv w) (h : noOverlapB sel w = true) (k : Nat) (p : Proc)
    (hp : w.procs k = some p) : sel p = false := by
  have hk : k < w.next := by
    by_cases hk : k < w.next
    · exact hk
    · have := hi.fresh k (by omega)
      rw [hp] at this
      exact absurd this (by simp)
  have := List.all_eq_true.mp h k (List.mem_range.mpr hk)
  simp only [hp] at this
  simpa using this

theorem along_inv {P : World → LabEvent → Prop} {B : World → LabEvent → Bool}
    (h : ∀ w e, LabInv w → ¬ IsReset e → B w e = true → P w e) (l : List LabEvent) (hl : ∀ e ∈ l, isResetB e = false) :
    ∀ w, LabInv w → alongB B w l = true → Along P w l := by
  have hres : ∀ e, isResetB e = false → ¬ IsReset e := by
    intro e he
    cases e <;> simp [isResetB, IsReset] at he ⊢
  induction l with
  | nil => intro _ _ _; trivial
  | cons e rest ih =>
    intro w hi hb
    simp only [alongB, Bool.and_eq_true] at hb
    have he := hres e (hl e (List.mem_cons_self ..))
    exact ⟨h w e hi he hb.1, ih (fun x hx => hl x (List.mem_cons_of_mem _ hx)) _ (labStep_inv hi he) hb.2⟩

theorem dir_of (w : World) (e : LabEvent) (hi : LabInv w) (_ : ¬ IsReset e) (h : dirB w e = true) :
    NoOverlapDir w e ∧ Polite e := by
  simp only [dirB, Bool.and_eq_true] at h
  refine ⟨?_, ?_⟩
  · cases e with
    | spawn c d l =>
      intro pid p hp
      have := noOverlap_of hi h.1 pid p hp
      simpa using this
    | run pid => trivial
    | crash pid => trivial
    | reset => trivial
  · have h2 := h.2
    cases e with
    | spawn c d l =>
      cases c with
      | up o => simp [politeB] at h2; simp [Polite]; exact ⟨h2.1, fun h => by simpa [h] using h2.2⟩
      | create u n => simp [politeB] at h2; simp [Polite, h2]
      | down o => simp [politeB] at h2; simp only [Polite]; intro hf; simpa [hf] using h2
      | initial => trivial
    | run pid => trivial
    | crash pid => trivial
    | reset => trivial

theorem lab_of (lab : String) (w : World) (e : LabEvent) (hi : LabInv w) (hr : ¬ IsReset e) (h : labB lab w e = true) :
    ¬ IsReset e ∧ NoOverlapLab lab w e ∧ CleanCheck w e := by
  simp only [labB, Bool.and_eq_true] at h
  refine ⟨hr, ?_, ?_⟩
  · cases e with
    | spawn c d l =>
      intro hl pid p hp
      have h2 := h.2
      simp only [hl, bne_self_eq_false, Bool.false_or] at h2
      have := noOverlap_of hi h2 pid p hp
      simpa using this
    | run pid => trivial
    | crash pid => trivial
    | reset => trivial
  · cases e with
    | run pid =>
      intro p f c rest hp ha q hq
      have h2 := h.2
      simp only [hp, ha, Bool.or_false] at h2
      have hq' : midWriteB w q = true := by
        obtain ⟨p', st, c', hp', hph⟩ := hq
        simp [midWriteB, hp', hph]
      obtain ⟨p', st, c', hp', hph⟩ := hq
      have hk : q < w.next := by
        by_cases hk : q < w.next
        · exact hk
        · have := hi.fresh q (by omega)
          rw [hp'] at this
          exact absurd this (by simp)
      have := List.all_eq_true.mp h2 q (List.mem_range.mpr hk)
      rw [hq'] at this
      exact absurd this (by simp)
    | spawn c d l => trivial
    | crash pid => trivial
    | reset => trivial

theorem removes_of (lab dir : String) (w : World) (pid : Nat) (h : removesB lab w pid = true)
    (hd : (w.procs pid).map Proc.dir = some dir) : Removes lab dir w (.run pid) := by
  unfold removesB at h
  cases hp : w.procs pid with
  | none => simp [hp] at h
  | some p =>
    rw [hp] at hd
    simp only [Option.map_some, Option.some.injEq] at hd
    simp only [hp, Bool.and_eq_true, beq_iff_eq] at h
    obtain ⟨⟨h1, h2⟩, h3⟩ := h
    cases hph : p.phase with
    | loaded st =>
      cases ha : p.acts with
      | nil => simp [ha] at h3
      | cons a rest =>
        refine ⟨p, rest, st, hp, h1, hd, ?_, hph⟩
        rw [ha] at h3 ⊢
        split at h3
        · rename_i heq
          simp only [List.cons.injEq] at heq
          rw [heq.1]
        · exact absurd h3 (by simp)
    | _ => simp [hph] at h2

/-- The hypotheses of `C36_removed_by_owner` are met by a lab that is started, shut down by its owner while
another directory works with another lab instance, and reaches the step in which it is removed. -/
example :
    let h := [.spawn upCmd "/a" "x", .spawn upCmd "/b" "y"] ++ finish 0 ++ finish 1 ++
      [.spawn downCmd "/a" "x"] ++ List.replicate 15 (.run 2)
    Along (fun w e => ¬ IsReset e ∧ NoOverlapLab "x" w e ∧ CleanCheck w e) .init h ∧
      Removes "x" "/a" (labRun .init h) (.run 2) ∧ owner (labRun .init h).file "x" = some "/a" ∧
      owner (labRun .init h).file "y" = some "/b" := by
  refine ⟨along_inv (lab_of "x") _ ?_ _ labInv_init ?_, ?_, ?_, ?_⟩
  · decide +kernel
  · decide +kernel
  · exact removes_of _ _ _ _ (by decide +kernel) (by decide +kernel)
  · decide +kernel
  · decide +kernel

/-- The hypotheses of the C37 theorems are met by a lab whose start is interrupted and continued from the snapshot,
while another command tries to recreate the lab files. -/
example :
    let h := [.spawn upCmd "/a" "x"] ++ List.replicate 23 (.run 0) ++ [.crash 0, .spawn (.create false 3) "/a" "x"] ++
      finish 1 ++ [.spawn upSnapshot "/a" "x"] ++ finish 2
    Along (fun w e => NoOverlapDir w e ∧ Polite e) .init h ∧
      (labRun .init h).running "/a" = some "x" ∧ (labRun .init h).conf "/a" = some 0 := by
  refine ⟨along_inv dir_of _ ?_ _ labInv_init ?_, ?_, ?_⟩ <;> decide +kernel

/-- **C36, the exceptions.**  `netlab down` in a directory that does not own a lab instance removes the instance of
another directory when that instance is started between the check and the removal. -/
theorem C36_down_race :
    ∃ h : List LabEvent, (∀ e ∈ h, ¬ IsReset e) ∧ (labRun .init h).running "/a" = some "x" ∧
      owner (labRun .init h).file "x" = none ∧ (labRun .init h).flock = none ∧
      (∀ c l, LabEvent.spawn c "/a" l ∈ h → c = upCmd) := by
  refine ⟨[.spawn downDry "/b" "x", .run 0, .spawn upCmd "/a" "x"] ++ finish 1 ++ finish 0, ?_, ?_, ?_, ?_, ?_⟩
  · intro e he
    simp only [finish, List.mem_append, List.mem_cons, List.not_mem_nil, or_false, List.mem_replicate] at he
    rcases he with ((h | h | h) | ⟨-, h⟩) | ⟨-, h⟩ <;> subst h <;> simp [IsReset]
  · decide +kernel
  · decide +kernel
  · decide +kernel
  · intro c l he
    simp only [finish, List.mem_append, List.mem_cons, List.not_mem_nil, or_false, List.mem_replicate] at he
    rcases he with ((h | h | h) | ⟨-, h⟩) | ⟨-, h⟩ <;> simp at h
    exact h.1

/-- **C36, the exceptions.**  `netlab down --dry-run` removes the lab instance although the lab keeps running, and
another directory can then start the same lab instance; no two commands overlap, and nothing crashes. -/
theorem C36_dry_run_down_forgets :
    let h := [.spawn upCmd "/a" "x"] ++ finish 0 ++ [.spawn downDry "/a" "x"] ++ finish 1 ++
      [.spawn upCmd "/b" "x"] ++ finish 2
    (labRun .init h).running "/a" = some "x" ∧ (labRun .init h).running "/b" = some "x" := by
  constructor <;> decide +kernel

/-- **C36, the exceptions.**  A command that crashes between truncating the status file and writing it makes all
lab instances disappear from it, and another directory can start an instance that is still running. -/
theorem C36_crash_mid_write :
    let h := [.spawn upCmd "/a" "x"] ++ finish 0 ++ [.spawn .initial "/c" "z"] ++ List.replicate 3 (.run 1) ++
      [.crash 1, .spawn upCmd "/b" "x"] ++ finish 2
    (labRun .init h).running "/a" = some "x" ∧ (labRun .init h).running "/b" = some "x" := by
  constructor <;> decide +kernel

/-- **C36, the exceptions.**  `netlab down` reads the status file without locking it: reading it while another
command rewrites it makes it remove the lab instance of another directory without asking the user. -/
theorem C36_unlocked_read :
    let h := [.spawn upCmd "/a" "x"] ++ finish 0 ++ [.spawn .initial "/c" "z"] ++ List.replicate 3 (.run 1) ++
      [.spawn downCmd "/b" "x", .run 2] ++ finish 1 ++ finish 2
    (labRun .init h).running "/a" = some "x" ∧ owner (labRun .init h).file "x" = none ∧
      owner (labRun .init h).file "z" = some "/c" := by
  refine ⟨?_, ?_, ?_⟩ <;> decide +kernel

/-- **C37, the exceptions.**  Two `netlab up` commands executed in the same directory: the second one overwrites the
files of the started lab. -/
theorem C37_concurrent_up :
    let h := [.spawn upCmd "/a" "x", .spawn upCmd "/a" "x", .run 1, .run 1] ++ finish 0
    (labRun .init h).running "/a" = some "x" ∧ (labRun .init h).conf "/a" = some 0 ∧
      (labStep (labRun .init h) (.run 1)).conf "/a" = some 1 := by
  refine ⟨?_, ?_, ?_⟩ <;> decide +kernel

/-- **C37, the exceptions.**  Restarting a lab while it is being shut down leaves a started lab without a lock. -/
theorem C37_concurrent_down :
    let h := [.spawn upCmd "/a" "x"] ++ finish 0 ++ [.spawn downCmd "/a" "x"] ++ List.replicate 18 (.run 1) ++
      [.spawn upSnapshot "/a" "x"] ++ List.replicate 12 (.run 2) ++ [.run 1] ++ finish 2
    (labRun .init h).running "/a" = some "x" ∧ (labRun .init h).locked "/a" = false := by
  constructor <;> decide +kernel

/-- **C37, the exceptions.**  Answering "no" to the prompt of the `external` provider in `netlab up --snapshot`
unlocks the directory of a started lab, and removes the lab from the status file. -/
theorem C37_abort_unlocks :
    let h := [.spawn (.up ⟨false, false, false, 3, "lab", ["external"], false⟩) "/a" "x"] ++ finish 0 ++
      [.spawn (.up ⟨true, false, false, 3, "lab", ["external"], true⟩) "/a" "x"] ++ finish 1
    (labRun .init h).running "/a" = some "x" ∧ (labRun .init h).locked "/a" = false ∧
      owner (labRun .init h).file "x" = none := by
  refine ⟨?_, ?_, ?_⟩ <;> decide +kernel

end Netlab
