import Verif.Model.Confirm
import Verif.Spec.Confirm
import Verif.Props.Nodeset
import Verif.Props.ToolRun
/-!
# C153: commands that stop labs, remove the status file or kill containers ask for confirmation
-/

namespace Netlab

open Spec

/-- Letters that become a given lower-case letter. -/
theorem toLower_inv (c d : Char) (hd : d.isUpper = false) (h : c.toLower = d) :
    c = d ∨ (c.isUpper = true ∧ c.toNat + 32 = d.toNat) := by
  unfold Char.toLower at h
  by_cases hu : c.val ≥ 'A'.val ∧ c.val ≤ 'Z'.val
  · rw [dif_pos hu] at h
    right
    refine ⟨by simp [Char.isUpper]; exact hu, ?_⟩
    subst h
    have h1 := UInt32.le_iff_toNat_le.mp hu.1
    have h2 := UInt32.le_iff_toNat_le.mp hu.2
    have h3 : ('A' : Char).val.toNat = 65 := rfl
    have h4 : ('Z' : Char).val.toNat = 90 := rfl
    simp only [Char.toNat]
    have h5 : ('a' : Char).val - ('A' : Char).val = 32 := by decide
    rw [h5, UInt32.toNat_add]
    have : (32 : UInt32).toNat = 32 := rfl
    omega
  · rw [dif_neg hu] at h
    exact Or.inl h

theorem toLower_eq_iff (c d u : Char) (hd : d.isUpper = false) (hu : u.toLower = d) (hn : u.toNat + 32 = d.toNat) :
    c.toLower = d ↔ c = d ∨ c = u := by
  constructor
  · intro h
    rcases toLower_inv c d hd h with h | ⟨_, h⟩
    · exact Or.inl h
    · right
      apply Char.toNat_inj.mp
      omega
  · rintro (rfl | rfl)
    · simp [Char.toLower]
      intro h1 h2
      simp [Char.isUpper, h1, h2] at hd
    · exact hu

theorem list_map1 {f : Char → Char} {l : List Char} {a : Char} : l.map f = [a] ↔ ∃ x, l = [x] ∧ f x = a := by
  match l with
  | [] => simp
  | [x] => simp
  | _ :: _ :: _ => simp

theorem list_map2 {f : Char → Char} {l : List Char} {a b : Char} :
    l.map f = [a, b] ↔ ∃ x y, l = [x, y] ∧ f x = a ∧ f y = b := by
  match l with
  | [] => simp
  | [x] => simp
  | [x, y] => simp
  | _ :: _ :: _ :: _ => simp

theorem list_map3 {f : Char → Char} {l : List Char} {a b c : Char} :
    l.map f = [a, b, c] ↔ ∃ x y z, l = [x, y, z] ∧ f x = a ∧ f y = b ∧ f z = c := by
  match l with
  | [] => simp
  | [x] => simp
  | [x, y] => simp
  | [x, y, z] => simp
  | _ :: _ :: _ :: _ :: _ => simp

theorem toList_eq_iff (s : String) (l : List Char) : s.toList = l ↔ s = String.ofList l := by
  constructor
  · rintro rfl; simp
  · rintro rfl; simp

theorem yes_iff (a : String) : (answerText a = ['y'] ∨ answerText a = ['y', 'e', 's']) ↔ a ∈ yesAnswers := by
  have hy := fun c => toLower_eq_iff c 'y' 'Y' (by decide) (by decide) (by decide)
  have he := fun c => toLower_eq_iff c 'e' 'E' (by decide) (by decide) (by decide)
  have hs := fun c => toLower_eq_iff c 's' 'S' (by decide) (by decide) (by decide)
  unfold answerText
  rw [list_map1, list_map3]
  simp only [hy, he, hs, toList_eq_iff, yesAnswers, List.mem_cons, List.not_mem_nil, or_false]
  constructor
  · rintro (⟨x, rfl, rfl | rfl⟩ | ⟨x, y, z, rfl, rfl | rfl, rfl | rfl, rfl | rfl⟩) <;> decide
  · rintro (rfl | rfl | rfl | rfl | rfl | rfl | rfl | rfl | rfl | rfl)
    · exact Or.inl ⟨'y', rfl, by decide⟩
    · exact Or.inl ⟨'Y', rfl, by decide⟩
    · exact Or.inr ⟨'y', 'e', 's', rfl, by decide, by decide, by decide⟩
    · exact Or.inr ⟨'y', 'e', 'S', rfl, by decide, by decide, by decide⟩
    · exact Or.inr ⟨'y', 'E', 's', rfl, by decide, by decide, by decide⟩
    · exact Or.inr ⟨'y', 'E', 'S', rfl, by decide, by decide, by decide⟩
    · exact Or.inr ⟨'Y', 'e', 's', rfl, by decide, by decide, by decide⟩
    · exact Or.inr ⟨'Y', 'e', 'S', rfl, by decide, by decide, by decide⟩
    · exact Or.inr ⟨'Y', 'E', 's', rfl, by decide, by decide, by decide⟩
    · exact Or.inr ⟨'Y', 'E', 'S', rfl, by decide, by decide, by decide⟩

theorem no_iff (a : String) : (answerText a = ['n'] ∨ answerText a = ['n', 'o']) ↔ a ∈ noAnswers := by
  have hn := fun c => toLower_eq_iff c 'n' 'N' (by decide) (by decide) (by decide)
  have ho := fun c => toLower_eq_iff c 'o' 'O' (by decide) (by decide) (by decide)
  unfold answerText
  rw [list_map1, list_map2]
  simp only [hn, ho, toList_eq_iff, noAnswers, List.mem_cons, List.not_mem_nil, or_false]
  constructor
  · rintro (⟨x, rfl, rfl | rfl⟩ | ⟨x, y, rfl, rfl | rfl, rfl | rfl⟩) <;> decide
  · rintro (rfl | rfl | rfl | rfl | rfl | rfl)
    · exact Or.inl ⟨'n', rfl, by decide⟩
    · exact Or.inl ⟨'N', rfl, by decide⟩
    · exact Or.inr ⟨'n', 'o', rfl, by decide, by decide⟩
    · exact Or.inr ⟨'n', 'O', rfl, by decide, by decide⟩
    · exact Or.inr ⟨'N', 'o', rfl, by decide, by decide⟩
    · exact Or.inr ⟨'N', 'O', rfl, by decide, by decide⟩

theorem yes_not_no : ∀ a ∈ yesAnswers, a ∉ noAnswers := by decide

/-- C153: the answer to a question is decided by the first "yes" or "no" (`y`, `yes`, `n` or `no`, in upper or lower case); all
other answers are ignored, and there's no answer when the user never says "yes" or "no". -/
theorem C153_confirm (answers : List String) :
    (∀ b, confirm answers = some b ↔ Answered answers b) ∧
    (confirm answers = none ↔ ∀ a ∈ answers, a ∉ yesAnswers ∧ a ∉ noAnswers) := by
  induction answers with
  | nil =>
    refine ⟨fun b => ⟨fun h => by simp [confirm] at h, ?_⟩, by simp [confirm]⟩
    rintro ⟨l, a, r, h, _⟩
    simp at h
  | cons x rest ih =>
    by_cases hy : x ∈ yesAnswers
    · have hc : confirm (x :: rest) = some true := by
        unfold confirm; rw [if_pos ((yes_iff x).mpr hy)]
      rw [hc]
      refine ⟨fun b => ⟨?_, ?_⟩, by simp [hy]⟩
      · intro h
        cases h
        exact ⟨[], x, rest, rfl, by simp, by simpa using hy⟩
      · rintro ⟨l, a, r, h, h1, h2⟩
        cases l with
        | nil =>
          simp only [List.nil_append, List.cons.injEq] at h
          obtain ⟨rfl, _⟩ := h
          cases b with
          | true => rfl
          | false => exact absurd h2 (yes_not_no x hy)
        | cons y l =>
          simp only [List.cons_append, List.cons.injEq] at h
          exact absurd hy (h.1 ▸ (h1 y (by simp)).1)
    · by_cases hn : x ∈ noAnswers
      · have hc : confirm (x :: rest) = some false := by
          unfold confirm
          rw [if_neg (fun h => hy ((yes_iff x).mp h)), if_pos ((no_iff x).mpr hn)]
        rw [hc]
        refine ⟨fun b => ⟨?_, ?_⟩, by simp [hn]⟩
        · intro h
          cases h
          exact ⟨[], x, rest, rfl, by simp, by simpa using hn⟩
        · rintro ⟨l, a, r, h, h1, h2⟩
          cases l with
          | nil =>
            simp only [List.nil_append, List.cons.injEq] at h
            obtain ⟨rfl, _⟩ := h
            cases b with
            | true => exact absurd h2 hy
            | false => rfl
          | cons y l =>
            simp only [List.cons_append, List.cons.injEq] at h
            exact absurd hn (h.1 ▸ (h1 y (by simp)).2)
      · have hc : confirm (x :: rest) = confirm rest := by
          rw [confirm, if_neg (fun h => hy ((yes_iff x).mp h)), if_neg (fun h => hn ((no_iff x).mp h))]
        rw [hc]
        refine ⟨fun b => ?_, ?_⟩
        · rw [ih.1 b]
          constructor
          · rintro ⟨l, a, r, rfl, h1, h2⟩
            refine ⟨x :: l, a, r, rfl, ?_, h2⟩
            intro z hz
            rcases List.mem_cons.mp hz with rfl | hz
            · exact ⟨hy, hn⟩
            · exact h1 z hz
          · rintro ⟨l, a, r, h, h1, h2⟩
            cases l with
            | nil =>
              simp only [List.nil_append, List.cons.injEq] at h
              obtain ⟨rfl, _⟩ := h
              cases b
              · exact absurd h2 hn
              · exact absurd h2 hy
            | cons y l =>
              simp only [List.cons_append, List.cons.injEq] at h
              exact ⟨l, a, r, h.2, fun z hz => h1 z (by simp [hz]), h2⟩
        · rw [ih.2]
          simp [hy, hn]

example : confirm ["maybe", "", "YES", "n"] = some true ∧ confirm ["yess", "No"] = some false ∧ confirm ["whatever"] = none := by
  decide +kernel

theorem textIn_iff (p l : List Char) : textIn p l = true ↔ p <:+: l := by
  induction l with
  | nil => simp [textIn]
  | cons c r ih =>
    unfold textIn
    rw [Bool.or_eq_true, ih, List.isPrefixOf_iff_prefix, List.infix_cons_iff]

/-- The lab selected by the command. -/
theorem selected_iff (a : StatusArgs) (h : StatusHost) (k : LabKey) (i : LabInfo) (hn : (h.states.map (·.1)).Nodup)
    (hs : selectedLab a h = some (k, i)) : LabSelected a.inst h.cwd h.states k i := by
  unfold selectedLab at hs
  simp only [Option.bind_eq_some_iff, Option.map_eq_some_iff, Prod.mk.injEq] at hs
  obtain ⟨k', hk, i', hi, rfl, rfl⟩ := hs
  have hm : (k', i') ∈ h.states := by
    clear hk hn
    generalize h.states = l at hi
    induction l with
    | nil => simp at hi
    | cons p l ih =>
      obtain ⟨pk, pv⟩ := p
      rw [List.lookup_cons] at hi
      by_cases he : k' = pk
      · subst he; simp at hi; subst hi; simp
      · simp [beq_false_of_ne he] at hi
        exact List.mem_cons_of_mem _ (ih hi)
  refine ⟨hm, ?_⟩
  have hdir : ∀ d, (k', d) ∈ h.states.map (fun s => (s.1, s.2.dir)) → i'.dir = d := by
    intro d hd
    simp only [List.mem_map, Prod.mk.injEq] at hd
    obtain ⟨⟨k2, i2⟩, h2, rfl, rfl⟩ := hd
    have : i2 = i' := by
      clear hk hi
      generalize h.states = l at hn hm h2
      induction l with
      | nil => simp at hm
      | cons p l ih =>
        simp only [List.map_cons, List.nodup_cons, List.mem_map] at hn
        rcases List.mem_cons.mp hm with e1 | hm' <;> rcases List.mem_cons.mp h2 with e2 | h2'
        · have := e1.trans e2.symm
          exact (Prod.mk.inj this).2.symm
        · subst e1; exact absurd ⟨_, h2', rfl⟩ hn.1
        · subst e2; exact absurd ⟨_, hm', rfl⟩ hn.1
        · exact ih hn.2 hm' h2'
    rw [this]
  have h133 := C133_instance (h.states.map (fun s => (s.1, s.2.dir))) h.cwd
  cases hinst : a.inst with
  | none =>
    rw [hinst] at hk
    exact hdir _ (h133.2.1 _ hk)
  | some n =>
    rw [hinst] at hk
    simp only
    by_cases h0 : n = ""
    · rw [if_pos h0]
      subst h0
      exact hdir _ (h133.2.1 _ hk)
    · rw [if_neg h0]
      exact ((h133.1 n h0 k').mp hk).1

theorem logLines_mem (l : List String) (x : StatusDo) (h : x ∈ logLines l) : x = .log l := by
  unfold logLines at h
  split at h <;> simp_all

theorem statusReset_acts (h : StatusHost) (x : StatusDo) :
    x ∈ (statusReset h).acts ↔ x = .remove ∧ Answered h.answers true ∧ h.removable = true := by
  rw [← (C153_confirm h.answers).1 true]
  unfold statusReset
  cases hc : confirm h.answers with
  | none => simp
  | some b =>
    cases b
    · simp
    · simp only
      cases h.removable <;> simp

theorem statusCleanup_acts (a : StatusArgs) (h : StatusHost) (x : StatusDo) :
    x ∈ (statusCleanup a h).acts ↔
      Answered h.answers true ∧ ∃ k i, selectedLab a h = some (k, i) ∧ h.isDir i.dir = true ∧ x = .stop i.dir := by
  rw [← (C153_confirm h.answers).1 true]
  unfold statusCleanup
  cases hs : selectedLab a h with
  | none => simp
  | some p =>
    obtain ⟨k, i⟩ := p
    simp only
    cases hc : confirm h.answers with
    | none => simp
    | some b =>
      cases b
      · simp
      · simp only
        cases hd : h.isDir i.dir with
        | false =>
          simp only [Bool.false_eq_true, if_false, List.not_mem_nil, true_and, false_iff]
          rintro ⟨k', i', he, hd', _⟩
          cases he
          rw [hd] at hd'
          cases hd'
        | true =>
          simp only [if_true, List.mem_singleton, true_and]
          constructor
          · rintro rfl
            exact ⟨k, i, rfl, hd, rfl⟩
          · rintro ⟨k', i', he, _, hx⟩
            cases he
            exact hx

theorem statusCleanup_one (a : StatusArgs) (h : StatusHost) : (statusCleanup a h).acts.length ≤ 1 := by
  unfold statusCleanup
  cases hs : selectedLab a h with
  | none => simp
  | some p =>
    obtain ⟨k, i⟩ := p
    simp only
    cases hc : confirm h.answers with
    | none => simp
    | some b =>
      cases b
      · simp
      · simp only
        split <;> simp

theorem statusLog_acts (a : StatusArgs) (h : StatusHost) (x : StatusDo) (hx : x ∈ (statusLog a h).acts) :
    ∃ k i, selectedLab a h = some (k, i) ∧ (x = .lab k i.dir i.status i.providers ∨ x = .log i.log) := by
  unfold statusLog at hx
  cases hs : selectedLab a h with
  | none => rw [hs] at hx; simp at hx
  | some p =>
    obtain ⟨k, i⟩ := p
    rw [hs] at hx
    refine ⟨k, i, rfl, ?_⟩
    rcases List.mem_cons.mp hx with h | h
    · exact Or.inl h
    · exact Or.inr (logLines_mem _ _ h)

theorem statusShow_acts (a : StatusArgs) (h : StatusHost) (x : StatusDo) (hx : x ∈ (statusShow a h).acts) :
    ∃ k i, selectedLab a h = some (k, i) ∧
      (x = .lab k i.dir i.status i.providers ∨ x = .log i.log ∨ (x = .nodes i.dir ∧ h.snapshot i.dir = true)) := by
  unfold statusShow at hx
  cases hs : selectedLab a h with
  | none => rw [hs] at hx; simp at hx
  | some p =>
    obtain ⟨k, i⟩ := p
    rw [hs] at hx
    refine ⟨k, i, rfl, ?_⟩
    simp only at hx
    by_cases h1 : h.snapshot i.dir = true
    · rw [if_pos h1] at hx
      split at hx
      · simp only [List.mem_cons, List.not_mem_nil, or_false] at hx
        rcases hx with h | h
        · exact Or.inl h
        · exact Or.inr (Or.inr ⟨h, h1⟩)
      · rcases List.mem_cons.mp hx with h | h
        · exact Or.inl h
        · exact Or.inr (Or.inl (logLines_mem _ _ h))
    · rw [if_neg h1] at hx
      simp only [List.mem_cons, List.not_mem_nil, or_false] at hx
      exact Or.inl hx

/-- The mode of the command. -/
theorem statusRun_cases (a : StatusArgs) (h : StatusHost) :
    (statusRun a h = ⟨[], false⟩ ∧ ¬ (a.reset = true ∧ a.all = false ∧ a.cleanup = false) ∧
      (h.states = [] ∨ (a.reset = true ∧ a.all = true) ∨ (a.reset = true ∧ a.cleanup = true) ∨ (a.all = true ∧ a.cleanup = true))) ∨
    (a.reset = true ∧ a.all = false ∧ a.cleanup = false ∧ statusRun a h = statusReset h) ∨
    (a.reset = false ∧ a.all = true ∧ a.cleanup = false ∧ h.states ≠ [] ∧
      statusRun a h = ⟨[.labs (h.states.map (fun s =>
        (s.1, s.2.dir, if s.2.status = "" then "Unknown" else s.2.status, s.2.providers)))], true⟩) ∨
    (a.reset = false ∧ a.all = false ∧ a.cleanup = true ∧ h.states ≠ [] ∧ statusRun a h = statusCleanup a h) ∨
    (a.reset = false ∧ a.all = false ∧ a.cleanup = false ∧ a.log = true ∧ h.states ≠ [] ∧ statusRun a h = statusLog a h) ∨
    (a.reset = false ∧ a.all = false ∧ a.cleanup = false ∧ a.log = false ∧ h.states ≠ [] ∧ statusRun a h = statusShow a h) := by
  obtain ⟨alog, aclean, areset, aall, ainst⟩ := a
  by_cases he : h.states = []
  · cases alog <;> cases areset <;> cases aall <;> cases aclean <;> simp [statusRun, he]
  · have he' : h.states.isEmpty = false := by simpa using he
    cases alog <;> cases areset <;> cases aall <;> cases aclean <;> simp [statusRun, he]

/-- C153: `netlab status` stops labs only with `--cleanup`, after the user confirms it, and it stops just one lab: the lab selected
by the user, in the directory of that lab. -/
theorem C153_stop (a : StatusArgs) (h : StatusHost) (hn : (h.states.map (·.1)).Nodup) (dir : String)
    (hd : .stop dir ∈ (statusRun a h).acts) :
    a.cleanup = true ∧ a.reset = false ∧ a.all = false ∧ Answered h.answers true ∧ (statusRun a h).acts = [.stop dir] ∧
    ∃ k i, LabSelected a.inst h.cwd h.states k i ∧ i.dir = dir := by
  rcases statusRun_cases a h with ⟨e, _⟩ | ⟨_, _, _, e⟩ | ⟨_, _, _, _, e⟩ | ⟨h1, h2, h3, _, e⟩ | ⟨_, _, _, _, _, e⟩ |
    ⟨_, _, _, _, _, e⟩
  · rw [e] at hd; simp at hd
  · rw [e, statusReset_acts] at hd; simp at hd
  · rw [e] at hd; simp at hd
  · rw [e] at hd ⊢
    have hl := statusCleanup_one a h
    have hd2 := hd
    rw [statusCleanup_acts] at hd2
    obtain ⟨ha, k, i, hk, _, hx⟩ := hd2
    refine ⟨h3, h1, h2, ha, ?_, k, i, selected_iff a h k i hn hk, by cases hx; rfl⟩
    generalize (statusCleanup a h).acts = l at hl hd
    match l with
    | [] => simp at hd
    | [x] => simp at hd; rw [hd]
    | _ :: _ :: _ => simp at hl
  · rw [e] at hd
    obtain ⟨_, _, _, hx | hx⟩ := statusLog_acts a h _ hd <;> cases hx
  · rw [e] at hd
    obtain ⟨_, _, _, hx | hx | ⟨hx, _⟩⟩ := statusShow_acts a h _ hd <;> cases hx

/-- C153: a confirmed `netlab status --cleanup` stops the lab given with `-i` (a lab in the status file with an existing directory). -/
theorem C153_stopped (a : StatusArgs) (h : StatusHost) (n : String) (i : LabInfo) (hn : (h.states.map (·.1)).Nodup)
    (hc : a.cleanup = true) (hr : a.reset = false) (ha : a.all = false) (hi : a.inst = some n) (h0 : n ≠ "")
    (hm : (labKey n, i) ∈ h.states) (hy : Answered h.answers true) (hd : h.isDir i.dir = true) :
    statusRun a h = ⟨[.stop i.dir], true⟩ := by
  have hlook : h.states.lookup (labKey n) = some i := by
    clear hy hd
    generalize h.states = l at hn hm
    induction l with
    | nil => simp at hm
    | cons p l ih =>
      simp only [List.map_cons, List.nodup_cons, List.mem_map] at hn
      rw [List.lookup_cons]
      rcases List.mem_cons.mp hm with e | hm'
      · rw [← e]; simp
      · have : labKey n ≠ p.1 := fun e => hn.1 ⟨_, hm', e⟩
        simp [beq_false_of_ne this]
        exact ih hn.2 hm'
  have hg : getInstance a.inst h.cwd (h.states.map (fun s => (s.1, s.2.dir))) = some (labKey n) := by
    rw [hi, (C133_instance _ h.cwd).1 n h0]
    refine ⟨rfl, ?_⟩
    simp only [List.map_map, List.mem_map]
    exact ⟨_, hm, rfl⟩
  have hs : selectedLab a h = some (labKey n, i) := by
    unfold selectedLab
    rw [hg]
    simp [hlook]
  have hne : h.states ≠ [] := by intro e; rw [e] at hm; simp at hm
  rcases statusRun_cases a h with ⟨_, _, e | e | e | e⟩ | ⟨e, _⟩ | ⟨_, e, _⟩ | ⟨_, _, _, _, e⟩ | ⟨_, _, e, _⟩ | ⟨_, _, e, _⟩
  · exact absurd e hne
  · rw [hr] at e; simp at e
  · rw [hr] at e; simp at e
  · rw [ha] at e; simp at e
  · rw [hr] at e; cases e
  · rw [ha] at e; cases e
  · rw [e]
    unfold statusCleanup
    rw [hs]
    simp only
    rw [((C153_confirm h.answers).1 true).mpr hy]
    simp [hd]
  · rw [hc] at e; cases e
  · rw [hc] at e; cases e

/-- C153: the status file is removed only with `--reset` (and no other option that selects the action) and after the user confirms
it; nothing else is done in that case. -/
theorem C153_remove (a : StatusArgs) (h : StatusHost) :
    .remove ∈ (statusRun a h).acts ↔
      a.reset = true ∧ a.all = false ∧ a.cleanup = false ∧ Answered h.answers true ∧ h.removable = true := by
  constructor
  · intro hd
    rcases statusRun_cases a h with ⟨e, _⟩ | ⟨h1, h2, h3, e⟩ | ⟨_, _, _, _, e⟩ | ⟨_, _, _, _, e⟩ | ⟨_, _, _, _, _, e⟩ |
      ⟨_, _, _, _, _, e⟩
    · rw [e] at hd; simp at hd
    · rw [e, statusReset_acts] at hd
      exact ⟨h1, h2, h3, hd.2⟩
    · rw [e] at hd; simp at hd
    · rw [e, statusCleanup_acts] at hd
      obtain ⟨_, _, _, _, _, hx⟩ := hd
      cases hx
    · rw [e] at hd
      obtain ⟨_, _, _, hx | hx⟩ := statusLog_acts a h _ hd <;> cases hx
    · rw [e] at hd
      obtain ⟨_, _, _, hx | hx | ⟨hx, _⟩⟩ := statusShow_acts a h _ hd <;> cases hx
  · rintro ⟨h1, h2, h3, h4⟩
    rcases statusRun_cases a h with ⟨_, e, _⟩ | ⟨_, _, _, e⟩ | ⟨e, _⟩ | ⟨e, _⟩ | ⟨e, _⟩ | ⟨e, _⟩
    · exact absurd ⟨h1, h2, h3⟩ e
    · rw [e, statusReset_acts]
      exact ⟨rfl, h4⟩
    all_goals (rw [h1] at e; cases e)

/-- C153: at most one of `--all`, `--reset` and `--cleanup` can be used; nothing is done otherwise. -/
theorem C153_conflict (a : StatusArgs) (h : StatusHost)
    (hc : (a.reset = true ∧ a.all = true) ∨ (a.reset = true ∧ a.cleanup = true) ∨ (a.all = true ∧ a.cleanup = true)) :
    statusRun a h = ⟨[], false⟩ := by
  rcases statusRun_cases a h with ⟨e, _⟩ | ⟨h1, h2, h3, e⟩ | ⟨h1, h2, h3, _⟩ | ⟨h1, h2, h3, _⟩ | ⟨h1, h2, h3, _⟩ | ⟨h1, h2, h3, _⟩
  · exact e
  all_goals (rw [h1, h2, h3] at hc; simp at hc)

/-- C153: `netlab status --all` displays all labs, in the order in which they are in the status file. -/
theorem C153_all (a : StatusArgs) (h : StatusHost) (ha : a.all = true) (hr : a.reset = false) (hc : a.cleanup = false)
    (hne : h.states ≠ []) :
    ∃ rows, statusRun a h = ⟨[.labs rows], true⟩ ∧ rows.map (fun r => (r.1, r.2.1)) = h.states.map (fun s => (s.1, s.2.dir)) ∧
      ∀ s ∈ h.states, s.2.status ≠ "" → (s.1, s.2.dir, s.2.status, s.2.providers) ∈ rows := by
  rcases statusRun_cases a h with ⟨_, _, e | e | e | e⟩ | ⟨e, _⟩ | ⟨_, _, _, _, e⟩ | ⟨_, e, _⟩ | ⟨_, e, _⟩ | ⟨_, e, _⟩
  · exact absurd e hne
  · rw [hr] at e; simp at e
  · rw [hr] at e; simp at e
  · rw [hc] at e; simp at e
  · rw [hr] at e; cases e
  · refine ⟨_, e, by simp, ?_⟩
    intro s hs h0
    simp only [List.mem_map]
    exact ⟨s, hs, by simp [h0]⟩
  all_goals (rw [ha] at e; cases e)

/-- C153: `netlab status` displays the selected lab.  Its nodes are displayed when the snapshot of lab topology can be read and the
lab was started. -/
theorem C153_nodes (a : StatusArgs) (h : StatusHost) (hn : (h.states.map (·.1)).Nodup) (dir : String) :
    (.nodes dir ∈ (statusRun a h).acts → a = ⟨false, false, false, false, a.inst⟩ ∧ h.snapshot dir = true ∧
      ∃ k i, LabSelected a.inst h.cwd h.states k i ∧ i.dir = dir ∧ WasStarted i ∧
        (statusRun a h).acts = [.lab k dir i.status i.providers, .nodes dir]) ∧
    (∀ k i, a = ⟨false, false, false, false, a.inst⟩ → selectedLab a h = some (k, i) → h.snapshot i.dir = true → WasStarted i →
      statusRun a h = ⟨[.lab k i.dir i.status i.providers, .nodes i.dir], true⟩) := by
  have hst : ∀ i : LabInfo, textIn "started".toList
      (labStatusOf (fun l => textIn "started".toList l.toList) i.status i.log).toList = true ↔ WasStarted i := by
    intro i
    unfold labStatusOf WasStarted
    by_cases h1 : i.status = "started"
    · rw [if_pos h1]
      rw [textIn_iff]
      simp [h1]
    · rw [if_neg h1]
      cases hf : i.log.find? (fun l => textIn "started".toList l.toList) with
      | some l =>
        simp only
        have := List.find?_some hf
        simp only [this, true_iff]
        exact Or.inr ⟨l, List.mem_of_find?_eq_some hf, (textIn_iff _ _).mp this⟩
      | none =>
        simp only [textIn_iff]
        rw [List.find?_eq_none] at hf
        constructor
        · exact Or.inl
        · rintro (h | ⟨l, hl, h⟩)
          · exact h
          · exact absurd ((textIn_iff _ _).mpr h) (hf l hl)
  have hshow : ∀ k i, selectedLab a h = some (k, i) → h.snapshot i.dir = true → WasStarted i →
      statusShow a h = ⟨[.lab k i.dir i.status i.providers, .nodes i.dir], true⟩ := by
    intro k i hs hsn hw
    unfold statusShow
    rw [hs]
    simp only
    rw [if_pos hsn, if_pos ((hst i).mpr hw)]
  constructor
  · intro hd
    rcases statusRun_cases a h with ⟨e, _⟩ | ⟨h1, h2, h3, e⟩ | ⟨_, _, _, _, e⟩ | ⟨_, _, _, _, e⟩ | ⟨_, _, _, _, _, e⟩ |
      ⟨h1, h2, h3, h4, _, e⟩
    · rw [e] at hd; simp at hd
    · rw [e, statusReset_acts] at hd; simp at hd
    · rw [e] at hd; simp at hd
    · rw [e, statusCleanup_acts] at hd
      obtain ⟨_, _, _, _, _, hx⟩ := hd
      cases hx
    · rw [e] at hd
      obtain ⟨_, _, _, hx | hx⟩ := statusLog_acts a h _ hd <;> cases hx
    · rw [e] at hd ⊢
      obtain ⟨k, i, hs, hx | hx | ⟨hx, hsn⟩⟩ := statusShow_acts a h _ hd
      · cases hx
      · cases hx
      · cases hx
        have hw : WasStarted i := by
          rw [← hst i]
          unfold statusShow at hd
          rw [hs] at hd
          simp only at hd
          rw [if_pos hsn] at hd
          split at hd
          · assumption
          · rcases List.mem_cons.mp hd with h | h
            · cases h
            · have := logLines_mem _ _ h
              cases this
        refine ⟨?_, hsn, k, i, selected_iff a h k i hn hs, rfl, hw, ?_⟩
        · obtain ⟨_, _, _, _, _⟩ := a
          simp only at h1 h2 h3 h4
          subst h1 h2 h3 h4
          rfl
        · rw [hshow k i hs hsn hw]
  · intro k i ha hs hsn hw
    have hne : h.states ≠ [] := by
      intro e
      have := (selected_iff a h k i hn hs).1
      rw [e] at this
      simp at this
    rw [← hshow k i hs hsn hw]
    rcases statusRun_cases a h with ⟨_, _, e | e | e | e⟩ | ⟨e, _⟩ | ⟨_, e, _⟩ | ⟨_, _, e, _⟩ | ⟨_, _, _, e, _⟩ | ⟨_, _, _, _, _, e⟩
    · exact absurd e hne
    · rw [ha] at e; simp at e
    · rw [ha] at e; simp at e
    · rw [ha] at e; simp at e
    · rw [ha] at e; simp at e
    · rw [ha] at e; simp at e
    · rw [ha] at e; simp at e
    · rw [ha] at e; simp at e
    · exact e

/-- C153: `netlab status --log` displays the lab selected by the user and its log, and changes nothing. -/
theorem C153_log (a : StatusArgs) (h : StatusHost) (hn : (h.states.map (·.1)).Nodup) (ha : a = ⟨true, false, false, false, a.inst⟩)
    (hok : (statusRun a h).ok = true) :
    ∃ k i, LabSelected a.inst h.cwd h.states k i ∧
      (statusRun a h).acts = .lab k i.dir i.status i.providers :: (if i.log = [] then [] else [.log i.log]) := by
  rcases statusRun_cases a h with ⟨e, _⟩ | ⟨e, _⟩ | ⟨_, e, _⟩ | ⟨_, _, e, _⟩ | ⟨_, _, _, _, _, e⟩ | ⟨_, _, _, e, _⟩
  · rw [e] at hok; cases hok
  · rw [ha] at e; cases e
  · rw [ha] at e; cases e
  · rw [ha] at e; cases e
  · rw [e] at hok ⊢
    unfold statusLog at hok ⊢
    cases hs : selectedLab a h with
    | none => rw [hs] at hok; cases hok
    | some p =>
      obtain ⟨k, i⟩ := p
      refine ⟨k, i, selected_iff a h k i hn hs, ?_⟩
      simp [logLines]
  · rw [ha] at e; cases e

/-- A host with two labs. -/
def exStatusHost (answers : List String) : StatusHost :=
  ⟨[(.name "default", ⟨"/lab/a", "started", ["clab"], ["starting", "started"]⟩), (.num 2, ⟨"/lab/b", "starting lab", [], ["starting lab"]⟩)],
    "/lab/a", answers, fun _ => true, true, fun _ => true⟩

example : statusRun ⟨false, true, false, false, some "2"⟩ (exStatusHost ["Y"]) = ⟨[.stop "/lab/b"], true⟩ ∧
    statusRun ⟨false, true, false, false, none⟩ (exStatusHost ["what", "yes"]) = ⟨[.stop "/lab/a"], true⟩ ∧
    statusRun ⟨false, true, false, false, none⟩ (exStatusHost ["no", "yes"]) = ⟨[], true⟩ ∧
    statusRun ⟨false, false, true, false, none⟩ (exStatusHost ["yes"]) = ⟨[.remove], true⟩ ∧
    statusRun ⟨false, false, false, false, none⟩ (exStatusHost []) =
      ⟨[.lab (.name "default") "/lab/a" "started" ["clab"], .nodes "/lab/a"], true⟩ ∧
    statusRun ⟨false, false, false, false, some "2"⟩ (exStatusHost []) =
      ⟨[.lab (.num 2) "/lab/b" "starting lab" [], .log ["starting lab"]], true⟩ ∧
    statusRun ⟨true, false, false, false, some "2"⟩ (exStatusHost []) =
      ⟨[.lab (.num 2) "/lab/b" "starting lab" [], .log ["starting lab"]], true⟩ ∧
    ((exStatusHost []).states.map (·.1)).Nodup := by decide +kernel

/-- C153: `netlab clab cleanup` does nothing unless the user uses `--force` or confirms the operation.  Otherwise it kills the
containers listed by Docker (all of them, in a single command), and removes the stopped containers and unused networks. -/
theorem C153_docker (force : Bool) (answers : List String) (containers : List String)
    (hc : ∀ c ∈ containers, c ≠ "" ∧ '\n' ∉ c.toList) (hne : containers ≠ []) :
    let ps := String.ofList (List.intercalate ['\n'] (containers.map (·.toList)) ++ ['\n'])
    (force = false → ¬ Answered answers true → dockerCleanup force answers (some ps) = []) ∧
    (force = true ∨ Answered answers true → dockerCleanup force answers (some ps) =
      [["docker", "ps", "--format", "{{ .Names }}"], ["docker", "kill"] ++ containers, ["docker", "system", "prune", "-f"]]) := by
  intro ps
  rw [← (C153_confirm answers).1 true]
  constructor
  · intro hf hy
    unfold dockerCleanup
    rw [if_neg]
    rintro (h | h)
    · rw [hf] at h; cases h
    · exact hy h
  · intro hy
    unfold dockerCleanup
    rw [if_pos hy]
    have hsplit : ∀ l : List (List Char), (∀ e ∈ l, '\n' ∉ e) → l ≠ [] →
        splitOnChar '\n' (List.intercalate ['\n'] l ++ ['\n']) = l ++ [[]] := by
      intro l hl hne
      have h2 := splitOnChar_intercalate '\n' (l ++ [[]]) (by simp) (by
        intro e he
        rcases List.mem_append.mp he with h | h
        · exact hl e h
        · simp at h; subst h; simp)
      rw [← h2]
      congr 1
      clear h2 hl
      induction l with
      | nil => exact absurd rfl hne
      | cons x l ih =>
        cases l with
        | nil => simp [List.intercalate]
        | cons y l =>
          have := ih (by simp)
          simp only [List.intercalate, List.intersperse, List.flatten_cons, List.cons_append, List.append_assoc] at this ⊢
          rw [this]
    have h1 := hsplit (containers.map (·.toList)) (by
      intro e he
      obtain ⟨c, hc', rfl⟩ := List.mem_map.mp he
      exact (hc c hc').2) (by simpa using hne)
    simp only [ps, String.toList_ofList, h1]
    have h3 : ((containers.map String.toList ++ [[]]).filter (fun c : List Char => !c.isEmpty)).map String.ofList = containers := by
      rw [List.filter_append]
      have : (containers.map String.toList).filter (fun c : List Char => !c.isEmpty) = containers.map String.toList := by
        rw [List.filter_eq_self]
        intro e he
        obtain ⟨c, hc', rfl⟩ := List.mem_map.mp he
        have := (hc c hc').1
        simp [this]
      rw [this]
      simp [List.map_map, Function.comp_def]
    rw [h3]
    rfl

/-- C153, defect: when no container is running, the command does not skip the first step (as it says it would): `docker kill` is
executed without the name of a container, and reports an error. -/
theorem C153_no_containers :
    ["docker", "kill"] ∈ dockerCleanup true [] (some "") := by decide +kernel

example : dockerCleanup false ["Yes"] (some "clab-a\nclab-b\n") =
    [["docker", "ps", "--format", "{{ .Names }}"], ["docker", "kill", "clab-a", "clab-b"], ["docker", "system", "prune", "-f"]] := by
  decide +kernel

end Netlab
