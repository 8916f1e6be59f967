import Verif.Model.Pools
import Verif.Spec.Net
import Mathlib.Tactic.Ring
import Mathlib.Data.List.Nodup
/-! # Helper lemmas for address pools -/

namespace Netlab
open Spec

/-- Arithmetic of equally sized blocks. -/
theorem subnet_disjoint {n : Net} {plen j k : Nat} (h : j ≠ k) :
    Spec.Disjoint (n.subnet plen j) (n.subnet plen k) := by
  rintro a ⟨⟨h1, h2⟩, h3, h4⟩
  simp only [Net.subnet] at *
  generalize 2 ^ (n.w - plen) = s at *
  rcases Nat.lt_or_gt_of_ne h with h | h
  · have : (j + 1) * s ≤ k * s := Nat.mul_le_mul_right _ h
    rw [Nat.add_mul] at this
    omega
  · have : (k + 1) * s ≤ j * s := Nat.mul_le_mul_right _ h
    rw [Nat.add_mul] at this
    omega

theorem blocks_fit {w p q : Nat} (h1 : p ≤ q) (h2 : q ≤ w) :
    2 ^ (q - p) * 2 ^ (w - q) = 2 ^ (w - p) := by
  rw [← Nat.pow_add]; congr 1; omega

theorem subnet_inside {n : Net} {plen k : Nat} (h1 : n.plen ≤ plen) (h2 : plen ≤ n.w)
    (hk : k < n.numSubnets plen) : Inside (n.subnet plen k) n := by
  rintro a ⟨ha, hb⟩
  have := blocks_fit h1 h2
  have hk' : (k + 1) * 2 ^ (n.w - plen) ≤ 2 ^ (plen - n.plen) * 2 ^ (n.w - plen) :=
    Nat.mul_le_mul_right _ hk
  simp only [Net.subnet, Covers] at *
  rw [this, Nat.add_mul] at hk'
  omega

theorem subnet_wf {n : Net} {plen k : Nat} (hn : n.WF) (h1 : n.plen ≤ plen) (h2 : plen ≤ n.w)
    (hk : k < n.numSubnets plen) : (n.subnet plen k).WF := by
  obtain ⟨a, b, c⟩ := hn
  have := blocks_fit h1 h2
  have hk' : (k + 1) * 2 ^ (n.w - plen) ≤ 2 ^ (plen - n.plen) * 2 ^ (n.w - plen) :=
    Nat.mul_le_mul_right _ hk
  simp only [Net.WF, Net.subnet, Net.size] at *
  rw [this, Nat.add_mul] at hk'
  refine ⟨h2, ?_, ?_⟩
  · refine Nat.dvd_add (Nat.dvd_trans ⟨2 ^ (plen - n.plen), ?_⟩ b) ⟨k, by ring⟩
    rw [← this]; ring
  · omega

/-- Every cached element is a subnet whose number is below the generator position, and the
numbers (`cp`) increase. -/
structure Gen.Inv (g : Gen) (cp : List Nat) : Prop where
  cache_eq : g.cache = cp.map (g.pool.subnet g.plen)
  sorted : cp.Pairwise (· < ·)
  below : ∀ k ∈ cp, k < g.pos
  bound : g.pos ≤ g.pool.numSubnets g.plen

theorem Gen.fill_inv {k : Nat} {g g' : Gen} {cp : List Nat} {b : Bool} (hi : g.Inv cp)
    (h : g.fill k = (g', b)) :
    g'.pool = g.pool ∧ g'.plen = g.plen ∧ g.pos ≤ g'.pos ∧
    (b = true → g'.cache.length = g.cache.length + k) ∧
    (b = false → g'.pos = g.pool.numSubnets g.plen) ∧
    ∃ ext, g'.Inv (cp ++ ext) ∧ ∀ x ∈ ext, g.pos ≤ x := by
  induction k generalizing g cp with
  | zero =>
    simp only [Gen.fill, Prod.mk.injEq] at h
    obtain ⟨rfl, rfl⟩ := h
    exact ⟨rfl, rfl, Nat.le_refl _, by simp, by simp, [], by simpa using hi, by simp⟩
  | succ k ih =>
    simp only [Gen.fill, Gen.next?] at h
    by_cases hp : g.pos < g.pool.numSubnets g.plen
    · simp only [hp, if_true] at h
      obtain ⟨a1, a2, a3, a4, a5, ext, a6, a7⟩ := ih (cp := cp ++ [g.pos]) (g := { g with pos := g.pos + 1, cache := g.cache ++ [g.pool.subnet g.plen g.pos] })
        ⟨by simp [hi.cache_eq], by
          refine List.pairwise_append.2 ⟨hi.sorted, by simp, ?_⟩
          intro a ha b hb
          simp only [List.mem_singleton] at hb
          subst hb
          exact hi.below a ha, by
          intro x hx
          simp only [List.mem_append, List.mem_singleton] at hx
          rcases hx with hx | rfl
          · have := hi.below x hx
            show x < g.pos + 1
            omega
          · exact Nat.lt_succ_self _, hp⟩ h
      refine ⟨a1, a2, by simp at a3; omega, fun hb => ?_, a5, g.pos :: ext, by simpa using a6, ?_⟩
      · have := a4 hb
        simp at this
        omega
      · intro x hx
        rcases List.mem_cons.1 hx with rfl | hx
        · exact Nat.le_refl _
        · have := a7 x hx
          simp at this
          omega
    · simp only [hp, if_false, Prod.mk.injEq] at h
      obtain ⟨rfl, rfl⟩ := h
      have := hi.bound
      exact ⟨rfl, rfl, Nat.le_refl _, by simp, fun _ => by omega, [], by simpa using hi, by simp⟩

/-- What one request does. -/
theorem Gen.request_inv {n : Nat} {g g' : Gen} {cp : List Nat} {o : Option Net} (hi : g.Inv cp)
    (h : g.request n = (o, g')) :
    g'.pool = g.pool ∧ g'.plen = g.plen ∧ g.pos ≤ g'.pos ∧
    ∃ ext, g'.Inv (cp ++ ext) ∧ (∀ x ∈ ext, g.pos ≤ x) ∧
      (n = 0 → ext = [] ∧
        ((g.pos < g.pool.numSubnets g.plen ∧ o = some (g.pool.subnet g.plen g.pos) ∧
            g'.pos = g.pos + 1) ∨
          (g.pos = g.pool.numSubnets g.plen ∧ o = none ∧ g' = g))) ∧
      (n ≠ 0 → ∀ s, o = some s →
        ∃ k, (cp ++ ext)[n-1]? = some k ∧ s = g.pool.subnet g.plen k) ∧
      (n ≠ 0 → o = none → g'.pos = g.pool.numSubnets g.plen) := by
  unfold Gen.request at h
  by_cases hn : n = 0
  · simp only [hn, if_true, Gen.next?] at h
    by_cases hp : g.pos < g.pool.numSubnets g.plen
    · simp only [hp, if_true, Prod.mk.injEq] at h
      obtain ⟨rfl, rfl⟩ := h
      refine ⟨rfl, rfl, by simp, [], ?_, by simp, fun _ => ⟨rfl, .inl ⟨hp, rfl, rfl⟩⟩, fun h => absurd hn h,
        fun h => absurd hn h⟩
      simp only [List.append_nil]
      exact ⟨hi.cache_eq, hi.sorted, fun k hk => by
        have := hi.below k hk
        show k < g.pos + 1
        omega, hp⟩
    · simp only [hp, if_false, Prod.mk.injEq] at h
      obtain ⟨rfl, rfl⟩ := h
      have := hi.bound
      exact ⟨rfl, rfl, Nat.le_refl _, [], by simpa using hi, by simp,
        fun _ => ⟨rfl, .inr ⟨by omega, rfl, rfl⟩⟩, fun h => absurd hn h, fun h => absurd hn h⟩
  · simp only [hn, if_false] at h
    rcases hf : g.fill (n - g.cache.length) with ⟨g1, b⟩
    obtain ⟨a1, a2, a3, a4, a5, ext, a6, a7⟩ := Gen.fill_inv hi hf
    rw [hf] at h
    cases b with
    | false =>
      simp only [Prod.mk.injEq] at h
      obtain ⟨rfl, rfl⟩ := h
      exact ⟨a1, a2, a3, ext, a6, a7, fun h => absurd h hn, fun _ s hs => (by cases hs),
        fun _ _ => a5 rfl⟩
    | true =>
      simp only [Prod.mk.injEq] at h
      obtain ⟨rfl, rfl⟩ := h
      have hlen := a4 rfl
      have hce := a6.cache_eq
      refine ⟨a1, a2, a3, ext, a6, a7, fun h => absurd h hn, fun _ s hs => ?_, fun _ ho => ?_⟩
      · rw [hce, List.getElem?_map] at hs
        cases hk : (cp ++ ext)[n-1]? with
        | none => simp [hk] at hs
        | some k =>
          simp only [hk, Option.map_some, Option.some.injEq] at hs
          exact ⟨k, rfl, by rw [← hs, a1, a2]⟩
      · exfalso
        rw [List.getElem?_eq_none_iff] at ho
        omega

/-- A sequence of requests to one generator. -/
def Gen.run (g : Gen) : List Nat → List (Nat × Option Net) × Gen
  | [] => ([], g)
  | n :: ns =>
    let (o, g') := g.request n
    let (log, g'') := g'.run ns
    ((n, o) :: log, g'')

/-- Facts about a complete run. -/
theorem Gen.run_inv {ns : List Nat} {g g' : Gen} {cp : List Nat} {log : List (Nat × Option Net)}
    (hi : g.Inv cp) (h : g.run ns = (log, g')) :
    g'.pool = g.pool ∧ g'.plen = g.plen ∧ g.pos ≤ g'.pos ∧
    ∃ ext, g'.Inv (cp ++ ext) ∧ (∀ x ∈ ext, g.pos ≤ x) ∧
      (∀ n s, (n, some s) ∈ log → n ≠ 0 →
        ∃ k, (cp ++ ext)[n-1]? = some k ∧ s = g.pool.subnet g.plen k) ∧
      (∀ s, (0, some s) ∈ log →
        ∃ k, g.pos ≤ k ∧ k < g'.pos ∧ k ∉ cp ++ ext ∧ s = g.pool.subnet g.plen k) := by
  induction ns generalizing g cp log with
  | nil =>
    simp only [Gen.run, Prod.mk.injEq] at h
    obtain ⟨rfl, rfl⟩ := h
    exact ⟨rfl, rfl, Nat.le_refl _, [], by simpa using hi, by simp, by simp, by simp⟩
  | cons n ns ih =>
    simp only [Gen.run] at h
    rcases hr : g.request n with ⟨o, g1⟩
    rcases hr2 : g1.run ns with ⟨log1, g2⟩
    simp only [hr, hr2, Prod.mk.injEq] at h
    obtain ⟨rfl, rfl⟩ := h
    obtain ⟨a1, a2, a3, ext, a4, a5, a6, a7, a8⟩ := Gen.request_inv hi hr
    obtain ⟨b1, b2, b3, ext2, b4, b5, b6, b7⟩ := ih a4 hr2
    refine ⟨b1.trans a1, b2.trans a2, by omega, ext ++ ext2, by simpa using b4, ?_, ?_, ?_⟩
    · intro x hx
      rcases List.mem_append.1 hx with hx | hx
      · exact a5 x hx
      · have := b5 x hx; omega
    · intro m s hm hm0
      rcases List.mem_cons.1 hm with hm | hm
      · cases hm
        obtain ⟨k, k1, k2⟩ := a7 hm0 s rfl
        refine ⟨k, ?_, k2⟩
        rw [← List.append_assoc]
        exact List.getElem?_append_left (List.getElem?_eq_some_iff.1 k1).1 ▸ k1
      · rw [← List.append_assoc, ← a1, ← a2]
        exact b6 m s hm hm0
    · intro s hs
      rcases List.mem_cons.1 hs with hs | hs
      · cases hs
        obtain ⟨rfl, h | h⟩ := a6 rfl
        · obtain ⟨h1, h2, h3⟩ := h
          refine ⟨g.pos, Nat.le_refl _, by omega, ?_, by simpa using h2⟩
          simp only [List.nil_append, List.mem_append, not_or]
          refine ⟨fun hm => ?_, fun hm => ?_⟩
          · have := hi.below _ hm; omega
          · have := b5 _ hm; omega
        · simp at h
      · obtain ⟨k, k1, k2, k3, k4⟩ := b7 s hs
        refine ⟨k, by omega, k2, by rw [← List.append_assoc]; exact k3, by rw [k4, a1, a2]⟩

/-- The relation between two answers given by the same generator. -/
def Gen.Compatible (a b : Nat × Option Net) : Prop :=
  ∀ s t, a.2 = some s → b.2 = some t →
    (a.1 ≠ 0 → a.1 = b.1 → s = t) ∧ (a.1 = 0 ∨ a.1 ≠ b.1 → Spec.Disjoint s t)

theorem Gen.run_pairwise {ns : List Nat} {g g' : Gen} {cp : List Nat}
    {log : List (Nat × Option Net)} (hi : g.Inv cp) (h : g.run ns = (log, g')) :
    log.Pairwise Gen.Compatible := by
  induction ns generalizing g cp log with
  | nil =>
    simp only [Gen.run, Prod.mk.injEq] at h
    obtain ⟨rfl, rfl⟩ := h
    exact List.Pairwise.nil
  | cons n ns ih =>
    simp only [Gen.run] at h
    rcases hr : g.request n with ⟨o, g1⟩
    rcases hr2 : g1.run ns with ⟨log1, g2⟩
    simp only [hr, hr2, Prod.mk.injEq] at h
    obtain ⟨rfl, rfl⟩ := h
    obtain ⟨a1, a2, a3, ext, a4, a5, a6, a7, a8⟩ := Gen.request_inv hi hr
    obtain ⟨b1, b2, b3, ext2, b4, b5, b6, b7⟩ := Gen.run_inv a4 hr2
    refine List.pairwise_cons.2 ⟨?_, ih a4 hr2⟩
    rintro ⟨m, o2⟩ hm s t rfl ht
    cases ht
    simp only
    have hnd : (cp ++ ext ++ ext2).Nodup := b4.sorted.imp (fun h => Nat.ne_of_lt h)
    -- the number of the first answer
    by_cases hn : n = 0
    · subst hn
      refine ⟨fun h => absurd rfl h, fun _ => ?_⟩
      obtain ⟨rfl, h | h⟩ := a6 rfl
      · obtain ⟨h1, h2, h3⟩ := h
        simp only [Option.some.injEq] at h2
        subst h2
        have hnot : g.pos ∉ cp ++ [] ++ ext2 := by
          simp only [List.append_nil, List.mem_append, not_or]
          refine ⟨fun hm => ?_, fun hm => ?_⟩
          · have := hi.below _ hm; omega
          · have := b5 _ hm; omega
        by_cases hm0 : m = 0
        · subst hm0
          obtain ⟨k, k1, -, -, k4⟩ := b7 t hm
          rw [k4, a1, a2]
          exact subnet_disjoint (by omega)
        · obtain ⟨k, k1, k2⟩ := b6 m t hm hm0
          rw [k2, a1, a2]
          refine subnet_disjoint ?_
          rintro rfl
          exact hnot (List.mem_of_getElem? k1)
      · simp at h
    · obtain ⟨k, k1, k2⟩ := a7 hn s rfl
      have k1' : (cp ++ ext ++ ext2)[n-1]? = some k :=
        List.getElem?_append_left (List.getElem?_eq_some_iff.1 k1).1 ▸ k1
      by_cases hm0 : m = 0
      · subst hm0
        refine ⟨fun _ h => absurd h hn, fun _ => ?_⟩
        obtain ⟨k', -, -, k3', k4'⟩ := b7 t hm
        rw [k2, k4', a1, a2]
        refine subnet_disjoint ?_
        rintro rfl
        exact k3' (List.mem_of_getElem? k1')
      · obtain ⟨k', k1'', k2'⟩ := b6 m t hm hm0
        refine ⟨fun _ h => ?_, fun h => ?_⟩
        · subst h
          rw [k1'] at k1''
          cases k1''
          rw [k2, k2', a1, a2]
        · rw [k2, k2', a1, a2]
          refine subnet_disjoint ?_
          rintro rfl
          obtain ⟨l1, e1⟩ := List.getElem?_eq_some_iff.1 k1'
          obtain ⟨l2, e2⟩ := List.getElem?_eq_some_iff.1 k1''
          have := (List.Nodup.getElem_inj_iff hnd).1 (e1.trans e2.symm)
          omega

theorem Gen.create_inv (p : String) (pool : Net) (plen : Nat) : (Gen.create p pool plen).Inv [] := by
  refine ⟨rfl, List.Pairwise.nil, by simp, ?_⟩
  simp only [Gen.create, Net.numSubnets]
  have : 0 < 2 ^ (plen - pool.plen) := Nat.two_pow_pos _
  split <;> omega

end Netlab
