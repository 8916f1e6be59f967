import Verif.Lemmas.Assigns
import Verif.Lemmas.Box
/-!
# Assignments in dictionaries with a global and a node scope
-/

namespace Netlab

variable {α K : Type}

/-- Value at `(none, name)` of the global dictionary or at `(some node, name)` of the dictionary
of a node -/
def atScope (g : List (String × α)) (ns : List (String × List (String × α))) :
    Option String × String → Option α
  | (none, v) => g.lookup v
  | (some n, v) => (ns.lookup n).bind (·.lookup v)

/-- Key of the value at a position; node positions selected by `G` are ignored -/
def ownKey (G : String → Bool) (key : α → Option K) (g : List (String × α))
    (ns : List (String × List (String × α))) (p : Option String × String) : Option K :=
  match p.1 with
  | none => (g.lookup p.2).bind key
  | some _ => if G p.2 then none else (atScope g ns p).bind key

variable {R : K → Prop} {U U' : K → Prop}

theorem assigns_scope_global (G : String → Bool) (key : α → Option K)
    (ns : List (String × List (String × α))) {d d' : List (String × α)}
    (h : Assigns R (fun v => (d.lookup v).bind key) U (fun v => (d'.lookup v).bind key) U') :
    Assigns R (ownKey G key d ns) U (ownKey G key d' ns) U' := by
  have h1 := h.pull (Q := Option String × String)
    (fun p => if p.1 = none then some p.2 else none)
    (fun p => if G p.2 then none else (atScope [] ns p).bind key)
    (by
      rintro ⟨a1, a2⟩ ⟨b1, b2⟩ p ha hb
      simp only at ha hb
      split at ha
      · split at hb
        · cases ha; cases hb; simp_all
        · cases hb
      · cases ha)
  have conv : ∀ x : List (String × α), (fun p : Option String × String =>
      (if p.1 = none then some p.2 else none).elim
      (if G p.2 then none else (atScope [] ns p).bind key)
      (fun v => (x.lookup v).bind key)) = ownKey G key x ns := by
    intro x
    funext p
    obtain ⟨s, v⟩ := p
    cases s with
    | none => rfl
    | some n => rfl
  rw [conv, conv] at h1
  exact h1

theorem assigns_scope_head (G : String → Bool) (key : α → Option K) (g : List (String × α))
    (n : String) (r : List (String × List (String × α))) {d d' : List (String × α)}
    (h : Assigns R (fun v => if G v then none else (d.lookup v).bind key) U
      (fun v => if G v then none else (d'.lookup v).bind key) U') :
    Assigns R (ownKey G key g ((n, d) :: r)) U (ownKey G key g ((n, d') :: r)) U' := by
  have h1 := h.pull (Q := Option String × String)
    (fun p => if p.1 = some n then some p.2 else none)
    (ownKey G key g r)
    (by
      rintro ⟨a1, a2⟩ ⟨b1, b2⟩ p ha hb
      simp only at ha hb
      split at ha
      · split at hb
        · cases ha; cases hb; simp_all
        · cases hb
      · cases ha)
  have conv : ∀ x : List (String × α), (fun p : Option String × String =>
      (if p.1 = some n then some p.2 else none).elim (ownKey G key g r p)
      (fun v => if G v then none else (x.lookup v).bind key)) = ownKey G key g ((n, x) :: r) := by
    intro x
    funext p
    obtain ⟨s, v⟩ := p
    cases s with
    | none => rfl
    | some m =>
      by_cases hm : m = n
      · subst hm
        simp only [if_true, Option.elim, ownKey, atScope, lookup_cons_self, Option.bind_some]
      · have hm' : (some m : Option String) ≠ some n := by simpa using hm
        simp only [hm', if_false, Option.elim, ownKey, atScope]
        rw [lookup_cons_ne _ _ hm]
  rw [conv, conv] at h1
  exact h1

theorem assigns_scope_tail (G : String → Bool) (key : α → Option K) (g : List (String × α))
    (n : String) (d : List (String × α)) {r r' : List (String × List (String × α))}
    (h : Assigns R (ownKey G key g r) U (ownKey G key g r') U') :
    Assigns R (ownKey G key g ((n, d) :: r)) U (ownKey G key g ((n, d) :: r')) U' := by
  have h1 := h.pull (Q := Option String × String)
    (fun p => if p.1 = some n then none else some p)
    (fun p => if G p.2 then none else (d.lookup p.2).bind key)
    (by
      intro a b p ha hb
      split at ha
      · cases ha
      split at hb
      · cases hb
      cases ha; cases hb; rfl)
  have conv : ∀ x : List (String × List (String × α)), (fun p : Option String × String =>
      (if p.1 = some n then none else some p).elim
        (if G p.2 then none else (d.lookup p.2).bind key) (ownKey G key g x)) =
      ownKey G key g ((n, d) :: x) := by
    intro x
    funext p
    obtain ⟨s, v⟩ := p
    cases s with
    | none => rfl
    | some m =>
      by_cases hm : m = n
      · subst hm
        simp only [if_true, Option.elim, ownKey, atScope, lookup_cons_self, Option.bind_some]
      · have hm' : (some m : Option String) ≠ some n := by simpa using hm
        simp only [hm', if_false, Option.elim, ownKey, atScope]
        rw [lookup_cons_ne _ _ hm]
  rw [conv, conv] at h1
  exact h1

end Netlab
