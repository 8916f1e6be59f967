import Verif.Model.IdSet

namespace Netlab

theorem nextLoop_ok {used : List IdVal} {max next n : Int}
    (h : nextLoop used max next = .ok n) :
    .i n ∉ used ∧ next ≤ n ∧ (next ≤ max → n ≤ max) ∧
      ∀ k, next ≤ k → k < n → .i k ∈ used := by
  induction next using nextLoop.induct (used := used) (max := max) with
  | case1 x hx =>
    rw [nextLoop] at h
    simp only [hx, ↓reduceIte, Except.ok.injEq] at h
    subst h
    simp only [Bool.not_eq_eq_eq_not, Bool.not_true, List.contains_eq_mem, decide_eq_false_iff_not] at hx
    exact ⟨hx, Int.le_refl _, id, fun k h1 h2 => absurd h2 (by omega)⟩
  | case2 x hx hm =>
    rw [nextLoop] at h
    rw [if_neg hx, if_pos hm] at h; cases h
  | case3 x hx hm ih =>
    rw [nextLoop] at h
    simp only [hx, hm, ↓reduceIte, Bool.false_eq_true] at h
    obtain ⟨h1, h2, h3, h4⟩ := ih h
    simp only [Bool.not_eq_eq_eq_not, Bool.not_true, Bool.not_eq_false, List.contains_eq_mem,
      decide_eq_true_eq] at hx
    refine ⟨h1, by omega, fun _ => h3 (by omega), fun k hk1 hk2 => ?_⟩
    by_cases hkx : k = x
    · exact hkx ▸ hx
    · exact h4 k (by omega) hk2

theorem nextLoop_error {used : List IdVal} {max next : Int} {e : Fatal}
    (h : nextLoop used max next = .error e) :
    .i next ∈ used ∧ ∀ k, next ≤ k → k ≤ max → .i k ∈ used := by
  induction next using nextLoop.induct (used := used) (max := max) with
  | case1 x hx =>
    rw [nextLoop] at h
    rw [if_pos hx] at h; cases h
  | case2 x hx hm =>
    simp only [Bool.not_eq_eq_eq_not, Bool.not_true, Bool.not_eq_false, List.contains_eq_mem,
      decide_eq_true_eq] at hx
    refine ⟨hx, fun k h1 h2 => ?_⟩
    have : k = x := by omega
    exact this ▸ hx
  | case3 x hx hm ih =>
    rw [nextLoop] at h
    simp only [hx, hm, ↓reduceIte, Bool.false_eq_true] at h
    obtain ⟨h1, h2⟩ := ih h
    simp only [Bool.not_eq_eq_eq_not, Bool.not_true, Bool.not_eq_false, List.contains_eq_mem,
      decide_eq_true_eq] at hx
    refine ⟨hx, fun k hk1 hk2 => ?_⟩
    by_cases hkx : k = x
    · exact hkx ▸ hx
    · exact h2 k (by omega) hk2

theorem nextLoop_exists_error {used : List IdVal} {max next : Int}
    (h0 : .i next ∈ used) (h : ∀ k, next ≤ k → k ≤ max → .i k ∈ used) :
    nextLoop used max next = .error .fatal := by
  cases hl : nextLoop used max next with
  | error e => cases e; rfl
  | ok n =>
    obtain ⟨h1, h2, h3, _⟩ := nextLoop_ok hl
    by_cases hm : next ≤ max
    · exact absurd (h n h2 (h3 hm)) h1
    · exfalso
      rw [nextLoop] at hl
      have : ¬ (!used.contains (IdVal.i next)) = true := by simp [h0]
      rw [if_neg this, if_pos (by omega)] at hl
      cases hl

theorem run_append (v : IdVar) (a b : List IdOp) :
    v.run (a ++ b) =
      match v.run a with
      | .error e => .error e
      | .ok (o, v') =>
        match v'.run b with
        | .error e => .error e
        | .ok (o', v'') => .ok (o ++ o', v'') := by
  induction a generalizing v with
  | nil =>
    simp only [List.nil_append, IdVar.run]
    cases v.run b <;> simp
  | cons op a ih =>
    simp only [List.cons_append, IdVar.run]
    cases v.step op with
    | error e => rfl
    | ok p =>
      obtain ⟨o, v'⟩ := p
      simp only [ih]
      cases v'.run a with
      | error e => rfl
      | ok q =>
        obtain ⟨o2, v2⟩ := q
        simp only
        cases v2.run b with
        | error e => rfl
        | ok r => simp

end Netlab
