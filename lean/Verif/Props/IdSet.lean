import Verif.Lemmas.IdSet
import Verif.Spec.IdSet
/-!
# C01: auto-assigned identifiers are fresh and bounded
-/

namespace Netlab
open Spec

/-- What is in the identifier set after any history: exactly the initial members, the
statically registered identifiers and the identifiers handed out. -/
theorem C01_set_contents (v v' : IdVar) (ops : List IdOp) (outs : List Int)
    (h : v.run ops = .ok (outs, v')) (x : IdVal) :
    x ∈ v'.value ↔ x ∈ v.value ∨ Registered ops x ∨ ∃ n ∈ outs, x = .i n := by
  induction ops generalizing v outs with
  | nil =>
    simp only [IdVar.run, Except.ok.injEq, Prod.mk.injEq] at h
    obtain ⟨rfl, rfl⟩ := h
    simp [Registered]
  | cons op ops ih =>
    simp only [IdVar.run] at h
    cases hs : v.step op with
    | error e => simp [hs] at h
    | ok p =>
      obtain ⟨o, v1⟩ := p
      simp only [hs] at h
      cases hr : v1.run ops with
      | error e => simp [hr] at h
      | ok q =>
        obtain ⟨os, v2⟩ := q
        simp only [hr, Except.ok.injEq, Prod.mk.injEq] at h
        obtain ⟨rfl, rfl⟩ := h
        have ih' := ih v1 os hr
        rw [ih']
        cases op with
        | extend add =>
          simp only [IdVar.step, Except.ok.injEq, Prod.mk.injEq] at hs
          obtain ⟨rfl, rfl⟩ := hs
          simp only [IdVar.extend, Registered, List.mem_append, List.mem_cons, IdOp.extend.injEq,
            List.nil_append]
          constructor
          · rintro ((h | h) | ⟨a, h1, h2⟩ | h)
            · exact .inr (.inl ⟨add, .inl rfl, h⟩)
            · exact .inl h
            · exact .inr (.inl ⟨a, .inr h1, h2⟩)
            · exact .inr (.inr h)
          · rintro (h | ⟨a, rfl | h1, h2⟩ | h)
            · exact .inl (.inr h)
            · exact .inl (.inl h2)
            · exact .inr (.inl ⟨a, h1, h2⟩)
            · exact .inr (.inr h)
        | setCounter a b =>
          simp only [IdVar.step, Except.ok.injEq, Prod.mk.injEq] at hs
          obtain ⟨rfl, rfl⟩ := hs
          simp [IdVar.setCounter, Registered]
        | alloc =>
          simp only [IdVar.step, IdVar.getNext] at hs
          cases hn : v.next with
          | none => simp [hn] at hs
          | some start =>
            simp only [hn] at hs
            cases hl : nextLoop v.value v.max start with
            | error e => simp [hl] at hs
            | ok n =>
              simp only [hl, Except.ok.injEq, Prod.mk.injEq] at hs
              obtain ⟨rfl, rfl⟩ := hs
              simp only [List.mem_cons, Registered, reduceCtorEq, false_or, List.cons_append,
                List.nil_append, exists_eq_or_imp]
              constructor
              · rintro ((h | h) | h | h) <;> simp [*]
              · rintro (h | h | h | h) <;> simp [*]

/-- **C01 (freshness).**  Take any history of registrations, counter changes and
allocations that ends with an allocation.  The identifier handed out by the last request is
neither in the initial set, nor registered earlier, nor handed out earlier. -/
theorem C01_fresh (v v' : IdVar) (pre : List IdOp) (outs : List Int) (n : Int)
    (h : v.run (pre ++ [.alloc]) = .ok (outs ++ [n], v')) :
    .i n ∉ v.value ∧ ¬ Registered pre (.i n) ∧ n ∉ outs := by
  rw [run_append] at h
  cases hp : v.run pre with
  | error e => simp [hp] at h
  | ok p =>
    obtain ⟨o, v1⟩ := p
    have hc := C01_set_contents v v1 pre o hp
    simp only [hp, IdVar.run, IdVar.step, IdVar.getNext] at h
    cases hn : v1.next with
    | none => simp [hn] at h
    | some start =>
      simp only [hn] at h
      cases hl : nextLoop v1.value v1.max start with
      | error e => simp [hl] at h
      | ok m =>
        simp only [hl, List.append_nil, Except.ok.injEq, Prod.mk.injEq] at h
        obtain ⟨h1, -⟩ := h
        have h1' := List.append_inj' h1 rfl
        obtain ⟨rfl, h2⟩ := h1'
        simp only [List.cons.injEq, and_true] at h2
        subst h2
        have hfresh := (nextLoop_ok hl).1
        rw [hc] at hfresh
        refine ⟨fun h => hfresh (.inl h), fun h => hfresh (.inr (.inl h)),
          fun h => hfresh (.inr (.inr ⟨m, h, rfl⟩))⟩

/-- **C01 (no repetition).**  The identifiers handed out in any history are pairwise
different and different from everything in the initial set. -/
theorem C01_nodup (v v' : IdVar) (ops : List IdOp) (outs : List Int)
    (h : v.run ops = .ok (outs, v')) :
    outs.Nodup ∧ ∀ n ∈ outs, .i n ∉ v.value := by
  induction ops generalizing v outs with
  | nil =>
    simp only [IdVar.run, Except.ok.injEq, Prod.mk.injEq] at h
    obtain ⟨rfl, rfl⟩ := h
    simp
  | cons op ops ih =>
    simp only [IdVar.run] at h
    cases hs : v.step op with
    | error e => simp [hs] at h
    | ok p =>
      obtain ⟨o, v1⟩ := p
      simp only [hs] at h
      cases hr : v1.run ops with
      | error e => simp [hr] at h
      | ok q =>
        obtain ⟨os, v2⟩ := q
        simp only [hr, Except.ok.injEq, Prod.mk.injEq] at h
        obtain ⟨rfl, rfl⟩ := h
        obtain ⟨ih1, ih2⟩ := ih v1 os hr
        cases op with
        | extend add =>
          simp only [IdVar.step, Except.ok.injEq, Prod.mk.injEq] at hs
          obtain ⟨rfl, rfl⟩ := hs
          refine ⟨ih1, fun n hn hv => ih2 n hn ?_⟩
          simp [IdVar.extend, hv]
        | setCounter a b =>
          simp only [IdVar.step, Except.ok.injEq, Prod.mk.injEq] at hs
          obtain ⟨rfl, rfl⟩ := hs
          exact ⟨ih1, ih2⟩
        | alloc =>
          simp only [IdVar.step, IdVar.getNext] at hs
          cases hn : v.next with
          | none => simp [hn] at hs
          | some start =>
            simp only [hn] at hs
            cases hl : nextLoop v.value v.max start with
            | error e => simp [hl] at hs
            | ok n =>
              simp only [hl, Except.ok.injEq, Prod.mk.injEq] at hs
              obtain ⟨rfl, rfl⟩ := hs
              have hfresh := (nextLoop_ok hl).1
              constructor
              · simp only [List.cons_append, List.nil_append, List.nodup_cons]
                exact ⟨fun hm => ih2 n hm (by simp), ih1⟩
              · intro m hm
                simp only [List.cons_append, List.nil_append, List.mem_cons] at hm
                rcases hm with rfl | hm
                · exact hfresh
                · intro hv
                  exact ih2 m hm (by simp [hv])

/-- Invariant used for the bounds: everything between the initial and the current value of
the counter is in use. -/
theorem C01_counter_invariant (v v' : IdVar) (ops : List IdOp) (outs : List Int) (start : Int)
    (hn : v.next = some start) (hle : start ≤ v.max) (hc : NoCounterChange ops)
    (h : v.run ops = .ok (outs, v')) :
    v'.max = v.max ∧ (∀ n ∈ outs, start ≤ n ∧ n ≤ v.max) ∧
      ∃ cur, v'.next = some cur ∧ start ≤ cur ∧ cur ≤ v.max ∧
        ∀ k, start ≤ k → k < cur → .i k ∈ v'.value := by
  induction ops generalizing v outs start with
  | nil =>
    simp only [IdVar.run, Except.ok.injEq, Prod.mk.injEq] at h
    obtain ⟨rfl, rfl⟩ := h
    exact ⟨rfl, by simp, start, hn, Int.le_refl _, hle, fun k h1 h2 => absurd h2 (by omega)⟩
  | cons op ops ih =>
    have hc' : NoCounterChange ops := fun a b hm => hc a b (List.mem_cons_of_mem _ hm)
    have hall := C01_set_contents v v' (op :: ops) outs h
    simp only [IdVar.run] at h
    cases hs : v.step op with
    | error e => simp [hs] at h
    | ok p =>
      obtain ⟨o, v1⟩ := p
      simp only [hs] at h
      cases hr : v1.run ops with
      | error e => simp [hr] at h
      | ok q =>
        obtain ⟨os, v2⟩ := q
        simp only [hr, Except.ok.injEq, Prod.mk.injEq] at h
        obtain ⟨rfl, rfl⟩ := h
        cases op with
        | extend add =>
          simp only [IdVar.step, Except.ok.injEq, Prod.mk.injEq] at hs
          obtain ⟨rfl, rfl⟩ := hs
          exact ih (v.extend add) os start hn hle hc' hr
        | setCounter a b => exact absurd (List.mem_cons_self ..) (hc a b)
        | alloc =>
          simp only [IdVar.step, IdVar.getNext, hn] at hs
          cases hl : nextLoop v.value v.max start with
          | error e => simp [hl] at hs
          | ok n =>
            simp only [hl, Except.ok.injEq, Prod.mk.injEq] at hs
            obtain ⟨rfl, rfl⟩ := hs
            obtain ⟨-, hsn, hnm, hbetween⟩ := nextLoop_ok hl
            have hnm := hnm hle
            obtain ⟨m1, m2, cur, m3, m4, m5, m6⟩ :=
              ih { v with value := .i n :: v.value, next := some n } os n rfl hnm hc' hr
            refine ⟨m1, ?_, cur, m3, by omega, m5, fun k hk1 hk2 => ?_⟩
            · intro m hm
              simp only [List.cons_append, List.nil_append, List.mem_cons] at hm
              rcases hm with rfl | hm
              · exact ⟨hsn, hnm⟩
              · have := m2 m hm
                simp only at this
                omega
            · by_cases hkn : n ≤ k
              · exact m6 k hkn hk2
              · exact (hall _).2 (.inl (hbetween k hk1 (by omega)))

/-- **C01 (bounds).**  If the counter starts within its limit, every identifier handed out
lies between the start value and the limit. -/
theorem C01_bounds (v v' : IdVar) (ops : List IdOp) (outs : List Int) (start : Int)
    (hn : v.next = some start) (hle : start ≤ v.max) (hc : NoCounterChange ops)
    (h : v.run ops = .ok (outs, v')) :
    ∀ n ∈ outs, start ≤ n ∧ n ≤ v.max :=
  (C01_counter_invariant v v' ops outs start hn hle hc h).2.1

/-- **C01 (exhaustion).**  After any history, an allocation is refused with a fatal error
exactly when every identifier between the start value and the limit is in use. -/
theorem C01_fatal_iff_exhausted (v v' : IdVar) (ops : List IdOp) (outs : List Int) (start : Int)
    (hn : v.next = some start) (hle : start ≤ v.max) (hc : NoCounterChange ops)
    (h : v.run ops = .ok (outs, v')) :
    v.run (ops ++ [.alloc]) = .error .fatal ↔
      ∀ k, start ≤ k → k ≤ v.max →
        .i k ∈ v.value ∨ Registered ops (.i k) ∨ k ∈ outs := by
  obtain ⟨m1, -, cur, m3, m4, m5, m6⟩ := C01_counter_invariant v v' ops outs start hn hle hc h
  have hset := C01_set_contents v v' ops outs h
  have hset' : ∀ k : Int, IdVal.i k ∈ v'.value ↔
      .i k ∈ v.value ∨ Registered ops (.i k) ∨ k ∈ outs := by
    intro k
    rw [hset]
    simp
  rw [run_append, h]
  simp only [IdVar.run, IdVar.step, IdVar.getNext, m3, m1]
  constructor
  · intro he k hk1 hk2
    rw [← hset']
    cases hl : nextLoop v'.value v.max cur with
    | ok n => simp [hl] at he
    | error e =>
      by_cases hkc : k < cur
      · exact m6 k hk1 hkc
      · exact (nextLoop_error hl).2 k (by omega) hk2
  · intro hall
    have hall' : ∀ k, cur ≤ k → k ≤ v.max → IdVal.i k ∈ v'.value :=
      fun k h1 h2 => (hset' k).2 (hall k (by omega) h2)
    rw [nextLoop_exists_error (hall' cur (Int.le_refl _) m5) hall']

/-- The allocator hands out the smallest identifier that is free at or above the counter:
the result does not depend on the order in which static identifiers were registered. -/
theorem C01_least (v v' : IdVar) (start n : Int) (hn : v.next = some start)
    (h : v.getNext = .ok (n, v')) :
    start ≤ n ∧ .i n ∉ v.value ∧ ∀ k, start ≤ k → k < n → .i k ∈ v.value := by
  simp only [IdVar.getNext, hn] at h
  cases hl : nextLoop v.value v.max start with
  | error e => simp [hl] at h
  | ok m =>
    simp only [hl, Except.ok.injEq, Prod.mk.injEq] at h
    obtain ⟨rfl, -⟩ := h
    obtain ⟨h1, h2, -, h4⟩ := nextLoop_ok hl
    exact ⟨h2, h1, h4⟩

/-- The limit is only checked after the counter was incremented: a counter that *starts*
above its limit (e.g. a user-supplied start value) yields an out-of-range identifier
instead of the fatal error.  This is why `C01_bounds` needs `start ≤ max`. -/
theorem C01_start_above_limit_not_detected :
    ∃ v : IdVar, ∃ n v', v.getNext = .ok (n, v') ∧ n > v.max :=
  ⟨{ value := [], next := some 5000, max := 4094 }, 5000, _,
    by simp [IdVar.getNext, nextLoop]; rfl, by decide⟩

/-- Non-vacuity: VLANs 1000 and 1002 are static, two VLANs are allocated. -/
example :
    let v : IdVar := { value := [.i 1000], next := some 1000, max := 4094 }
    ∃ v', v.run [.extend [.i 1002], .alloc, .alloc] = .ok ([1001, 1003], v')
      ∧ (1000 : Int) ≤ v.max ∧ NoCounterChange [.extend [.i 1002], .alloc, .alloc] := by
  refine ⟨_, by simp [IdVar.run, IdVar.step, IdVar.getNext, IdVar.extend, nextLoop]; rfl, by decide,
    by intro a b; simp⟩

/-- Non-vacuity of the exhaustion theorem: two identifiers, both used. -/
example :
    (let v : IdVar := { value := [.i 1], next := some 1, max := 2 }
     v.run ([.alloc] ++ [.alloc])) = .error .fatal := by
  simp [IdVar.run, IdVar.step, IdVar.getNext, nextLoop]

end Netlab
