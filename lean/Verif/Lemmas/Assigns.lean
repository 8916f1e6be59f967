import Verif.Lemmas.IdSet
/-!
# Sequences of identifier assignments

`Assigns R M U M' U'`: starting with the (partial) assignment `M` and the set `U` of
identifiers in use, a sequence of steps, each giving an unused identifier with the property
`R` to a position that has none, leads to `M'` and `U'`.
-/

namespace Netlab

inductive Assigns {P K : Type} (R : K → Prop) (M : P → Option K) (U : K → Prop) :
    (P → Option K) → (K → Prop) → Prop
  | refl : Assigns R M U M U
  | step {M1 M2 : P → Option K} {U1 U2 : K → Prop} (p : P) (k : K) (h : Assigns R M U M1 U1)
      (hp : M1 p = none) (hk : ¬ U1 k) (hr : R k) (hM : M2 p = some k)
      (hM' : ∀ q, q ≠ p → M2 q = M1 q) (hU : ∀ x, U1 x ∨ x = k → U2 x) : Assigns R M U M2 U2
  | grow {M1 : P → Option K} {U1 U2 : K → Prop} (h : Assigns R M U M1 U1)
      (hU : ∀ x, U1 x → U2 x) : Assigns R M U M1 U2

namespace Assigns

variable {P Q K : Type} {R : K → Prop} {M M' M'' : P → Option K} {U U' U'' : K → Prop}

theorem trans (h1 : Assigns R M U M' U') (h2 : Assigns R M' U' M'' U'') :
    Assigns R M U M'' U'' := by
  induction h2 with
  | refl => exact h1
  | step p k _ hp hk hr hM hM' hU ih => exact .step p k ih hp hk hr hM hM' hU
  | grow _ hU ih => exact .grow ih hU

theorem kept (h : Assigns R M U M' U') : ∀ p k, M p = some k → M' p = some k := by
  induction h with
  | refl => exact fun _ _ h => h
  | step p k _ hp hk hr hM hM' hU ih =>
    intro q j hq
    have := ih q j hq
    by_cases e : q = p
    · subst e; rw [hp] at this; cases this
    · rw [hM' q e]; exact this
  | grow _ hU ih => exact ih

theorem mono (h : Assigns R M U M' U') : ∀ x, U x → U' x := by
  induction h with
  | refl => exact fun _ h => h
  | step p k _ hp hk hr hM hM' hU ih => exact fun x hx => hU x (.inl (ih x hx))
  | grow _ hU ih => exact fun x hx => hU x (ih x hx)

theorem used (h : Assigns R M U M' U') (h0 : ∀ p k, M p = some k → U k) :
    ∀ p k, M' p = some k → U' k := by
  induction h with
  | refl => exact h0
  | step p k _ hp hk hr hM hM' hU ih =>
    intro q j hq
    by_cases e : q = p
    · subst e
      rw [hM] at hq
      cases hq
      exact hU _ (.inr rfl)
    · rw [hM' q e] at hq
      exact hU _ (.inl (ih q j hq))
  | grow _ hU ih => exact fun q j hq => hU _ (ih q j hq)

/-- new identifiers are used at the end, whatever the initial set -/
theorem new_used (h : Assigns R M U M' U') :
    ∀ p k, M p = none → M' p = some k → ¬ U k ∧ R k ∧ U' k := by
  induction h with
  | refl => intro p k h1 h2; rw [h1] at h2; cases h2
  | step p k h hp hk hr hM hM' hU ih =>
    intro q j h1 h2
    by_cases e : q = p
    · subst e
      rw [hM] at h2
      cases h2
      exact ⟨fun hu => hk (h.mono _ hu), hr, hU _ (.inr rfl)⟩
    · rw [hM' q e] at h2
      obtain ⟨a, b, c⟩ := ih q j h1 h2
      exact ⟨a, b, hU _ (.inl c)⟩
  | grow _ hU ih =>
    intro q j h1 h2
    obtain ⟨a, b, c⟩ := ih q j h1 h2
    exact ⟨a, b, hU _ c⟩

/-- two automatically assigned identifiers are different -/
theorem autos_differ (h : Assigns R M U M' U') :
    ∀ p q k, p ≠ q → M p = none → M q = none → M' p = some k → M' q ≠ some k := by
  induction h with
  | refl => intro p q k _ h1 _ h2; rw [h1] at h2; cases h2
  | step r j h hp hk hr hM hM' hU ih =>
    intro p q k hpq h1 h2 h3 h4
    by_cases e : p = r
    · subst e
      rw [hM] at h3
      cases h3
      rw [hM' q (fun e => hpq e.symm)] at h4
      exact hk (h.new_used q _ h2 h4).2.2
    · rw [hM' p e] at h3
      by_cases e' : q = r
      · subst e'
        rw [hM] at h4
        cases h4
        exact hk (h.new_used p _ h1 h3).2.2
      · rw [hM' q e'] at h4
        exact ih p q k hpq h1 h2 h3 h4
  | grow _ hU ih => exact ih

/-- an automatically assigned identifier is different from all the others -/
theorem unique (h : Assigns R M U M' U') (h0 : ∀ p k, M p = some k → U k) :
    ∀ p q k, p ≠ q → M p = none → M' p = some k → M' q ≠ some k := by
  intro p q k hpq h1 h2 h3
  cases hq : M q with
  | none => exact h.autos_differ p q k hpq h1 hq h2 h3
  | some j =>
    rw [h.kept q j hq] at h3
    cases h3
    exact (h.new_used p _ h1 h2).1 (h0 q _ hq)

/-- Change the set of positions: `f` tells where a position comes from (`none`: the position
has a fixed value), positions that nothing refers to are ignored. -/
theorem pull (h : Assigns R M U M' U') (f : Q → Option P) (base : Q → Option K)
    (hf : ∀ a b p, f a = some p → f b = some p → a = b) :
    Assigns R (fun q => (f q).elim (base q) M) U (fun q => (f q).elim (base q) M') U' := by
  induction h with
  | refl => exact .refl
  | step p k h hp hk hr hM hM' hU ih =>
    rename_i M1 M2 U1 U2
    by_cases hex : ∃ q, f q = some p
    · obtain ⟨q, hq⟩ := hex
      refine .step q k ih ?_ hk hr ?_ ?_ hU
      · simp only [hq, Option.elim]; exact hp
      · simp only [hq, Option.elim]; exact hM
      · intro a ha
        cases hfa : f a with
        | none => rfl
        | some b =>
          simp only [Option.elim]
          exact hM' b (fun e => ha (hf a q p (by rw [hfa, e]) hq))
    · have hsame : (fun q => (f q).elim (base q) M2) = (fun q => (f q).elim (base q) M1) := by
        funext a
        cases hfa : f a with
        | none => rfl
        | some b =>
          simp only [Option.elim]
          exact hM' b (fun e => hex ⟨a, by rw [hfa, e]⟩)
      rw [hsame]
      exact .grow ih (fun x hx => hU x (.inl hx))
  | grow _ hU ih => exact .grow ih hU

theorem weakenR {R' : K → Prop} (h : Assigns R M U M' U') (hR : ∀ k, R k → R' k) :
    Assigns R' M U M' U' := by
  induction h with
  | refl => exact .refl
  | step p k _ hp hk hr hM hM' hU ih => exact .step p k ih hp hk (hR _ hr) hM hM' hU
  | grow _ hU ih => exact .grow ih hU

end Assigns
end Netlab
