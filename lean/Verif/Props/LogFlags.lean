import Verif.Spec.LogFlags
/-!
# C157: logging flags
-/

namespace Netlab
open Spec

theorem lfRun_append (s : LfSt) (l m : List LfCall) : lfRun s (l ++ m) = lfRun (lfRun s l) m := by
  simp [lfRun]

/-- A property of the last call that satisfies it, when every other call keeps it -/
theorem lfRun_keep (P : LfSt → Prop) (post : List LfCall) (hk : ∀ c ∈ post, ∀ s, P s → P (lfCall s c)) (s : LfSt) (h : P s) :
    P (lfRun s post) := by
  induction post generalizing s with
  | nil => exact h
  | cons c r ih => exact ih (fun d hd => hk d (List.mem_cons_of_mem _ hd)) _ (hk c List.mem_cons_self s h)

theorem setLoggingFlags_bool (a : LfArgs) (s : LfSt) :
    (setLoggingFlags a s).logging = (lfOn a.logging || s.logging) ∧
    (setLoggingFlags a s).quiet = (lfOn a.quiet || lfTest a.test || s.quiet) ∧
    (setLoggingFlags a s).warning = (lfOn a.warning || s.warning) ∧
    (setLoggingFlags a s).raiseError = (lfOn a.raiseError || s.raiseError) ∧
    (setLoggingFlags a s).verbose = (match a.verbose with | some n => if n ≠ 0 then n else s.verbose | none => s.verbose) ∧
    (setLoggingFlags a s).debug = (match a.debug with
      | none => s.debug
      | some none => none
      | some (some l) => some (if l.isEmpty then ["all"] else l)) := by
  refine ⟨?_, ?_, ?_, ?_, rfl, rfl⟩
  · simp only [setLoggingFlags]; cases lfOn a.logging <;> rfl
  · simp only [setLoggingFlags]; cases lfOn a.quiet <;> cases lfTest a.test <;> rfl
  · simp only [setLoggingFlags]; cases lfOn a.warning <;> rfl
  · simp only [setLoggingFlags]; cases lfOn a.raiseError <;> rfl

theorem lfTest_iff (t : Option (Option (List String))) : lfTest t = true ↔ ∃ l, t = some (some l) ∧ "errors" ∈ l := by
  rcases t with _ | _ | l <;> simp [lfTest]

theorem lfOn_iff (x : Option Bool) : lfOn x = true ↔ x = some true := by
  rcases x with _ | _ | _ <;> simp [lfOn]

/-- A call sets a flag to the requested value. -/
theorem lfCall_set (c : LfCall) (f : LfFlag) (v : Bool) (s : LfSt) (h : Requests c f v) : lfValue (lfCall s c) f = v := by
  cases c with
  | args a =>
    obtain ⟨h1, h2, h3, h4, -, -⟩ := setLoggingFlags_bool a s
    cases f <;> obtain ⟨rfl, h⟩ := h
    · simp [lfCall, lfValue, h1, (lfOn_iff _).2 h]
    · simp only [lfCall, lfValue, h2]
      rcases h with h | h
      · simp [(lfOn_iff _).2 h]
      · simp [(lfTest_iff _).2 h]
    · simp [lfCall, lfValue, h3, (lfOn_iff _).2 h]
    · simp [lfCall, lfValue, h4, (lfOn_iff _).2 h]
  | set g => cases f <;> simp only [Requests] at h <;> simp [lfCall, lfValue, setFlag, h]

/-- A call that does not request a flag keeps it. -/
theorem lfCall_keep (c : LfCall) (f : LfFlag) (s : LfSt) (h : ∀ v, ¬ Requests c f v) : lfValue (lfCall s c) f = lfValue s f := by
  cases c with
  | args a =>
    obtain ⟨h1, h2, h3, h4, -, -⟩ := setLoggingFlags_bool a s
    have h := h true
    cases f <;> simp only [Requests, true_and] at h
    · simp [lfCall, lfValue, h1, Bool.eq_false_iff.2 (mt (lfOn_iff _).1 h)]
    · rw [not_or] at h
      simp [lfCall, lfValue, h2, Bool.eq_false_iff.2 (mt (lfOn_iff _).1 h.1), Bool.eq_false_iff.2 (mt (lfTest_iff _).1 h.2)]
    · simp [lfCall, lfValue, h3, Bool.eq_false_iff.2 (mt (lfOn_iff _).1 h)]
    · simp [lfCall, lfValue, h4, Bool.eq_false_iff.2 (mt (lfOn_iff _).1 h)]
  | set g =>
    cases f <;> simp only [Requests] at h <;> simp only [lfCall, lfValue, setFlag]
    · rcases hg : g.logging with _ | x
      · rfl
      · exact absurd hg (h x)
    · rcases hg : g.quiet with _ | x
      · rfl
      · exact absurd hg (h x)
    · rcases hg : g.warning with _ | x
      · rfl
      · exact absurd hg (h x)
    · rcases hg : g.raiseError with _ | x
      · rfl
      · exact absurd hg (h x)

/-- C157: after any sequence of calls, a flag has the value requested in the last call that requested it. -/
theorem C157_last_request (s : LfSt) (pre post : List LfCall) (c : LfCall) (f : LfFlag) (v : Bool) (h : Requests c f v)
    (hp : ∀ d ∈ post, ∀ w, ¬ Requests d f w) : lfValue (lfRun s (pre ++ c :: post)) f = v := by
  rw [lfRun_append]
  refine lfRun_keep (fun x => lfValue x f = v) post (fun d hd x hx => ?_) _ (lfCall_set c f v _ h)
  rw [lfCall_keep d f x (hp d hd), hx]

/-- C157: a flag nobody requested does not change. -/
theorem C157_unchanged (s : LfSt) (l : List LfCall) (f : LfFlag) (h : ∀ d ∈ l, ∀ w, ¬ Requests d f w) :
    lfValue (lfRun s l) f = lfValue s f :=
  lfRun_keep (fun x => lfValue x f = lfValue s f) l (fun d hd x hx => by
    rw [lfCall_keep d f x (h d hd), hx]) s rfl

/-- C157: commands never turn off a flag: once it is on, it stays on whatever arguments are given. -/
theorem C157_stays_on (s : LfSt) (l : List LfArgs) (f : LfFlag) (h : lfValue s f = true) :
    lfValue (lfRun s (l.map .args)) f = true := by
  refine lfRun_keep (fun x => lfValue x f = true) _ (fun d hd x hx => ?_) s h
  obtain ⟨a, -, rfl⟩ := List.mem_map.1 hd
  by_cases hr : Requests (.args a) f true
  · exact lfCall_set _ f true x hr
  · rw [lfCall_keep _ f x]
    · exact hx
    · intro v hv
      have : v = true := by cases f <;> exact hv.1
      exact hr (this ▸ hv)

/-- C157: the verbosity is the one requested in the last call that requested it. -/
theorem C157_verbose (s : LfSt) (pre post : List LfCall) (c : LfCall) (n : Nat) (h : RequestsVerbose c n)
    (hp : ∀ d ∈ post, ∀ m, ¬ RequestsVerbose d m) : (lfRun s (pre ++ c :: post)).verbose = n := by
  rw [lfRun_append]
  refine lfRun_keep (fun x => x.verbose = n) post (fun d hd x hx => ?_) _ ?_
  · have hd := hp d hd
    cases d with
    | args a =>
      simp only [lfCall, (setLoggingFlags_bool a x).2.2.2.2.1]
      cases ha : a.verbose with
      | none => exact hx
      | some m =>
        by_cases hm : m = 0
        · simp [hm, hx]
        · exact absurd ⟨ha, hm⟩ (hd m)
    | set f =>
      simp only [lfCall, setFlag]
      cases hf : f.verbose with
      | none => exact hx
      | some m => exact absurd hf (hd m)
  · cases c with
    | args a =>
      simp only [lfCall, (setLoggingFlags_bool a _).2.2.2.2.1, h.1]
      simp [h.2]
    | set f =>
      simp only [RequestsVerbose] at h
      simp [lfCall, setFlag, h]

/-- C157: debugging messages are printed exactly for flags requested in the last call that requested debugging. -/
theorem C157_debug (s : LfSt) (pre post : List LfCall) (c : LfCall) (p : String → Prop) (h : RequestsDebug c p)
    (hp : ∀ d ∈ post, ∀ q, ¬ RequestsDebug d q) (flag : String) :
    debugActive (lfRun s (pre ++ c :: post)) flag = true ↔ p flag := by
  have hd : ∀ l : List String, debugActive { debug := some l } flag = true ↔ ("all" ∈ l ∨ flag ∈ l) := by
    intro l
    cases l <;> simp [debugActive]
  have he : ∀ x : LfSt, debugActive x flag = debugActive { debug := x.debug } flag := fun x => rfl
  rw [lfRun_append]
  refine lfRun_keep (fun x => debugActive x flag = true ↔ p flag) post (fun d hm x hx => ?_) _ ?_
  · have hm := hp d hm
    have : (lfCall x d).debug = x.debug := by
      cases d with
      | args a =>
        simp only [lfCall, (setLoggingFlags_bool a x).2.2.2.2.2]
        rcases ha : a.debug with _ | _ | l
        · rfl
        · exact absurd (.inl ⟨ha, rfl⟩) (hm _)
        · cases l with
          | nil => exact absurd (.inr (.inl ⟨ha, rfl⟩)) (hm _)
          | cons y r => exact absurd (.inr (.inr ⟨_, by simp, ha, rfl⟩)) (hm _)
      | set f =>
        simp only [lfCall, setFlag]
        cases hf : f.debug with
        | none => rfl
        | some l => exact absurd ⟨l, hf, rfl⟩ (hm _)
    rw [he, this, ← he]
    exact hx
  · rw [he]
    cases c with
    | args a =>
      simp only [lfCall, (setLoggingFlags_bool a _).2.2.2.2.2]
      rcases h with ⟨h, rfl⟩ | ⟨h, rfl⟩ | ⟨l, hl, h, rfl⟩
      · simp [h, debugActive]
      · simp [h, debugActive]
      · cases l with
        | nil => exact absurd rfl hl
        | cons y r =>
          simp only [h]
          exact hd (y :: r)
    | set f =>
      obtain ⟨l, h, rfl⟩ := h
      simp only [lfCall, setFlag, h, Option.some_or]
      exact hd l

/-- C157: the values returned when flags are set are the current values. -/
theorem C157_returned (f : LfSet) (s : LfSt) : (setFlag f s).2 = (setFlag f s).1 ∧ (setFlag {} s).2 = s := by
  refine ⟨rfl, ?_⟩
  obtain ⟨_, _, _, _, _, d⟩ := s
  cases d <;> rfl

/-- Non-vacuity: a command with `--debug vlan -v` after a command with `--test errors` -/
example : lfRun {} [.args { test := some (some ["errors"]), debug := some none },
      .args { verbose := some 1, debug := some (some ["vlan"]), quiet := some false }] =
    { verbose := 1, quiet := true, debug := some ["vlan"] } ∧
    Requests (.args { test := some (some ["errors"]), debug := some none }) .quiet true ∧
    (∀ w, ¬ Requests (.args { verbose := some 1, debug := some (some ["vlan"]), quiet := some false }) .quiet w) := by
  refine ⟨by decide +kernel, ⟨rfl, .inr ⟨_, rfl, by simp⟩⟩, ?_⟩
  rintro w ⟨-, h | ⟨l, h, -⟩⟩ <;> simp at h

end Netlab
