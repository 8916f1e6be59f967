import Verif.Lemmas.Pools
import Verif.Spec.Pools
import Verif.Lemmas.Assoc
/-! # Helper lemmas: histories of requests to many pools -/

namespace Netlab
open Spec

theorem poolPrefix_keys (n : Nat) (pool : Pool) :
    (poolPrefix n pool).2.1.map (·.1) = pool.map (·.1) := by
  induction pool with
  | nil => rfl
  | cons x r ih =>
    obtain ⟨af, e⟩ := x
    cases e with
    | attr v => simp [poolPrefix, ih]
    | gen g =>
      simp only [poolPrefix]
      rcases g.request n with ⟨_ | s, g'⟩ <;> simp [ih]

theorem poolPrefix_sub (n : Nat) (pool : Pool) {af : String} {x : PfxEntry}
    (h : (af, x) ∈ (poolPrefix n pool).1) : af ∈ pool.map (·.1) := by
  induction pool with
  | nil => simp [poolPrefix] at h
  | cons y r ih =>
    obtain ⟨k, e⟩ := y
    cases e with
    | attr v =>
      simp only [poolPrefix, List.mem_cons, Prod.mk.injEq] at h
      rcases h with h | h
      · simp [h.1]
      · have := ih h; simp at this ⊢; exact .inr this
    | gen g =>
      simp only [poolPrefix] at h
      rcases hreq : g.request n with ⟨_ | s, g'⟩ <;> rw [hreq] at h
      · have := ih h; simp at this ⊢; exact .inr this
      · simp only [List.mem_cons, Prod.mk.injEq] at h
        rcases h with h | h
        · simp [h.1]
        · have := ih h; simp at this ⊢; exact .inr this

theorem poolPrefix_gen (n : Nat) (pool : Pool) (hnd : (pool.map (·.1)).Nodup)
    {af : String} {g : Gen} (h : (af, PoolEntry.gen g) ∈ pool) :
    (af, PoolEntry.gen (g.request n).2) ∈ (poolPrefix n pool).2.1 ∧
    ∀ s, (af, PfxEntry.net s) ∈ (poolPrefix n pool).1 ↔ (g.request n).1 = some s := by
  induction pool with
  | nil => simp at h
  | cons y r ih =>
    obtain ⟨k, e⟩ := y
    simp only [List.map_cons, List.nodup_cons] at hnd
    rcases List.mem_cons.1 h with h' | h'
    · cases h'
      simp only [poolPrefix]
      rcases hreq : g.request n with ⟨_ | s, g'⟩
      · simp only [List.mem_cons, true_or, true_and]
        intro s
        refine ⟨fun hm => absurd (poolPrefix_sub n r hm) hnd.1, by simp⟩
      · simp only [List.mem_cons, true_or, true_and, Prod.mk.injEq, PfxEntry.net.injEq,
          Option.some.injEq]
        intro t
        refine ⟨?_, fun h => .inl h.symm⟩
        rintro (h | h)
        · exact h.symm
        · exact absurd (poolPrefix_sub n r h) hnd.1
    · have hne : af ≠ k := by
        rintro rfl
        exact hnd.1 (List.mem_map.2 ⟨(af, .gen g), h', rfl⟩)
      obtain ⟨ih1, ih2⟩ := ih hnd.2 h'
      cases e with
      | attr v =>
        simp only [poolPrefix, List.mem_cons, Prod.mk.injEq, hne, false_and, false_or]
        exact ⟨ih1, ih2⟩
      | gen g2 =>
        simp only [poolPrefix]
        rcases g2.request n with ⟨_ | s, g'⟩ <;>
          simp only [List.mem_cons, Prod.mk.injEq, hne, false_and, false_or] <;> exact ⟨ih1, ih2⟩

theorem poolPrefix_net_gen (n : Nat) (pool : Pool) {af : String} {s : Net}
    (h : (af, PfxEntry.net s) ∈ (poolPrefix n pool).1) : ∃ g, (af, PoolEntry.gen g) ∈ pool := by
  induction pool with
  | nil => simp [poolPrefix] at h
  | cons y r ih =>
    obtain ⟨k, e⟩ := y
    cases e with
    | attr v =>
      simp only [poolPrefix, List.mem_cons, Prod.mk.injEq, reduceCtorEq, and_false, false_or] at h
      obtain ⟨g, hg⟩ := ih h
      exact ⟨g, List.mem_cons_of_mem _ hg⟩
    | gen g =>
      simp only [poolPrefix] at h
      rcases hreq : g.request n with ⟨_ | t, g'⟩ <;> rw [hreq] at h
      · obtain ⟨g, hg⟩ := ih h
        exact ⟨g, List.mem_cons_of_mem _ hg⟩
      · simp only [List.mem_cons, Prod.mk.injEq] at h
        rcases h with h | h
        · exact ⟨g, by simp [h.1]⟩
        · obtain ⟨g, hg⟩ := ih h
          exact ⟨g, List.mem_cons_of_mem _ hg⟩

theorem lookup_setPool_self (p : String) (x : Pool) (pools : Pools)
    (h : pools.any (fun kv => kv.1 == p)) : (setPool p x pools).lookup p = some x := by
  induction pools with
  | nil => simp at h
  | cons y r ih =>
    obtain ⟨k, v⟩ := y
    by_cases hk : k = p
    · subst hk; simp [setPool]
    · have hk' : ¬ p = k := fun h => hk h.symm
      simp only [List.any_cons, Bool.or_eq_true, beq_iff_eq, hk, false_or] at h
      simp only [setPool, beq_iff_eq, hk, if_false]
      rw [lookup_cons_ne _ _ hk', ih h]

theorem lookup_setPool_ne (p q : String) (x : Pool) (pools : Pools) (h : q ≠ p) :
    (setPool p x pools).lookup q = pools.lookup q := by
  induction pools with
  | nil => rfl
  | cons y r ih =>
    obtain ⟨k, v⟩ := y
    by_cases hk : k = p
    · subst hk
      simp only [setPool, beq_self_eq_true, if_true]
      rw [lookup_cons_ne _ _ h, lookup_cons_ne _ _ h]
    · simp only [setPool, beq_iff_eq, hk, if_false, List.lookup_cons, ih]

theorem lookup_of_any (p : String) (pools : Pools) (h : pools.any (fun kv => kv.1 == p)) :
    ∃ pool, pools.lookup p = some pool := by
  induction pools with
  | nil => simp at h
  | cons y r ih =>
    obtain ⟨k, v⟩ := y
    by_cases hk : p = k
    · subst hk; exact ⟨v, by simp⟩
    · have hk' : ¬ k = p := fun h => hk h.symm
      simp only [List.any_cons, Bool.or_eq_true, beq_iff_eq, hk', false_or] at h
      obtain ⟨pool, hp⟩ := ih h
      exact ⟨pool, by rw [lookup_cons_ne _ _ hk, hp]⟩

theorem getPool_some {pools : Pools} {pl : List String} {p : String}
    (h : getPool pools pl = some p) : pools.any (fun kv => kv.1 == p) := by
  induction pl with
  | nil => simp [getPool] at h
  | cons q qs ih =>
    simp only [getPool] at h
    split at h
    · cases h; assumption
    · exact ih h

/-- Attribute names are unique in every pool. -/
def PoolsNodup (pools : Pools) : Prop :=
  ∀ p pool, pools.lookup p = some pool → (pool.map (·.1)).Nodup

/-- Effect of one request on pool `p`. -/
theorem getPrefix_step {pools pools' : Pools} {pl : List String} {n e : Nat}
    {sel : Option String} {pfx : List (String × PfxEntry)} (hnd : PoolsNodup pools)
    (h : getPrefix pools pl n = (sel, pfx, pools', e)) :
    PoolsNodup pools' ∧
    (∀ p, sel ≠ some p → pools'.lookup p = pools.lookup p) ∧
    (∀ p, sel = some p → ∃ pool, pools.lookup p = some pool ∧ pfx = (poolPrefix n pool).1 ∧
      pools'.lookup p = some (poolPrefix n pool).2.1) := by
  simp only [getPrefix] at h
  generalize hpl : (if pl.isEmpty = true then ["lan"] else pl) = pl' at h
  cases hg : getPool pools pl' with
  | none =>
    simp only [hg, Prod.mk.injEq] at h
    obtain ⟨rfl, rfl, rfl, rfl⟩ := h
    exact ⟨hnd, fun _ _ => rfl, fun p hp => (by cases hp)⟩
  | some p =>
    have hany := getPool_some hg
    obtain ⟨pool, hpool⟩ := lookup_of_any p pools hany
    simp only [hg, hpool, Option.getD_some, Prod.mk.injEq] at h
    obtain ⟨rfl, rfl, rfl, rfl⟩ := h
    refine ⟨?_, ?_, ?_⟩
    · intro q pool' hq
      by_cases hqp : q = p
      · subst hqp
        rw [lookup_setPool_self _ _ _ hany] at hq
        cases hq
        rw [poolPrefix_keys]
        exact hnd q pool hpool
      · rw [lookup_setPool_ne _ _ _ _ hqp] at hq
        exact hnd q pool' hq
    · intro q hq
      exact lookup_setPool_ne _ _ _ _ (fun h => hq (by rw [h]))
    · intro q hq
      cases hq
      exact ⟨pool, hpool, rfl, lookup_setPool_self _ _ _ hany⟩

/-- The pool has generator `g` for address family `af`. -/
def HasGen (pools : Pools) (p af : String) (g : Gen) : Prop :=
  ∃ pool, pools.lookup p = some pool ∧ (af, PoolEntry.gen g) ∈ pool

open Classical in
/-- The answers that pool `p` gave for address family `af`. -/
noncomputable def projEntry (p af : String)
    (e : Nat × Option String × List (String × PfxEntry)) : Option (Nat × Option Net) :=
  if e.2.1 = some p then
    some (e.1, if h : ∃ s, (af, PfxEntry.net s) ∈ e.2.2 then some h.choose else none)
  else none

theorem projEntry_eq {n : Nat} {pool : Pool} {p af : String} {g : Gen}
    (hnd : (pool.map (·.1)).Nodup) (hm : (af, PoolEntry.gen g) ∈ pool) :
    projEntry p af (n, some p, (poolPrefix n pool).1) = some (n, (g.request n).1) := by
  obtain ⟨-, q2⟩ := poolPrefix_gen n pool hnd hm
  simp only [projEntry, if_true, Option.some.injEq, Prod.mk.injEq, true_and]
  split
  · rename_i hex
    exact ((q2 _).1 hex.choose_spec).symm
  · rename_i hex
    cases hreq : (g.request n).1 with
    | none => rfl
    | some s => exact absurd ⟨s, (q2 s).2 hreq⟩ hex

theorem proj_run {reqs : List (List String × Nat)} {pools pools' : Pools} {p af : String}
    {g : Gen} {log : List (Nat × Option String × List (String × PfxEntry))}
    (hnd : PoolsNodup pools) (hg : HasGen pools p af g) (h : runRequests pools reqs = (log, pools')) :
    ∃ ns g', g.run ns = (log.filterMap (projEntry p af), g') := by
  induction reqs generalizing pools g log with
  | nil =>
    simp only [runRequests, Prod.mk.injEq] at h
    obtain ⟨rfl, rfl⟩ := h
    exact ⟨[], g, rfl⟩
  | cons r rs ih =>
    obtain ⟨pl, n⟩ := r
    simp only [runRequests] at h
    rcases hgp : getPrefix pools pl n with ⟨sel, pfx, pools1, e⟩
    rcases hrr : runRequests pools1 rs with ⟨log1, pools2⟩
    simp only [hgp, hrr, Prod.mk.injEq] at h
    obtain ⟨rfl, rfl⟩ := h
    obtain ⟨h1, h2, h3⟩ := getPrefix_step hnd hgp
    obtain ⟨pool, hp, hmem⟩ := hg
    by_cases hs : sel = some p
    · obtain ⟨pool', hp', rfl, hp1⟩ := h3 p hs
      rw [hp] at hp'
      cases hp'
      obtain ⟨q1, q2⟩ := poolPrefix_gen n pool (hnd p pool hp) hmem
      obtain ⟨ns, g', hr⟩ := ih h1 ⟨_, hp1, q1⟩ hrr
      refine ⟨n :: ns, g', ?_⟩
      subst hs
      have hproj := projEntry_eq (n := n) (p := p) (hnd p pool hp) hmem
      simp only [Gen.run, hr, List.filterMap_cons, hproj]
    · have hp1 := h2 p hs
      obtain ⟨ns, g', hr⟩ := ih h1 ⟨pool, by rw [hp1, hp], hmem⟩ hrr
      refine ⟨ns, g', ?_⟩
      have hproj : projEntry p af (n, sel, pfx) = none := by simp [projEntry, hs]
      simp only [hr, List.filterMap_cons, hproj]

/-- An answer of pool `p` for address family `af` comes from a generator of the pool. -/
theorem handsOut_hasGen {reqs : List (List String × Nat)} {pools pools' : Pools} {p af : String}
    {log : List (Nat × Option String × List (String × PfxEntry))}
    (hnd : PoolsNodup pools) (h : runRequests pools reqs = (log, pools'))
    {e : Nat × Option String × List (String × PfxEntry)} (he : e ∈ log) {s : Net}
    (hs : HandsOut e p af s) : ∃ g, HasGen pools p af g := by
  induction reqs generalizing pools log with
  | nil =>
    simp only [runRequests, Prod.mk.injEq] at h
    obtain ⟨rfl, rfl⟩ := h
    simp at he
  | cons r rs ih =>
    obtain ⟨pl, n⟩ := r
    simp only [runRequests] at h
    rcases hgp : getPrefix pools pl n with ⟨sel, pfx, pools1, e1⟩
    rcases hrr : runRequests pools1 rs with ⟨log1, pools2⟩
    simp only [hgp, hrr, Prod.mk.injEq] at h
    obtain ⟨rfl, rfl⟩ := h
    obtain ⟨h1, h2, h3⟩ := getPrefix_step hnd hgp
    rcases List.mem_cons.1 he with rfl | he
    · obtain ⟨ha, hb⟩ := hs
      obtain ⟨pool, hp, rfl, -⟩ := h3 p ha
      obtain ⟨g, hg⟩ := poolPrefix_net_gen n pool hb
      exact ⟨g, pool, hp, hg⟩
    · obtain ⟨g, pool, hp, hg⟩ := ih h1 hrr he
      by_cases hs : sel = some p
      · obtain ⟨pool', hp', rfl, hp1⟩ := h3 p hs
        rw [hp1] at hp
        cases hp
        -- the keys and kinds of entries do not change
        have : ∀ q : Pool, (af, PoolEntry.gen g) ∈ (poolPrefix n q).2.1 →
            ∃ g, (af, PoolEntry.gen g) ∈ q := by
          intro q
          induction q with
          | nil => simp [poolPrefix]
          | cons y r ih =>
            obtain ⟨k, e⟩ := y
            intro hm
            cases e with
            | attr v =>
              simp only [poolPrefix, List.mem_cons, Prod.mk.injEq, reduceCtorEq, and_false,
                false_or] at hm
              obtain ⟨g, hg⟩ := ih hm
              exact ⟨g, List.mem_cons_of_mem _ hg⟩
            | gen g2 =>
              simp only [poolPrefix] at hm
              rcases hreq : g2.request n with ⟨_ | t, g'⟩ <;> rw [hreq] at hm
              all_goals
                simp only [List.mem_cons, Prod.mk.injEq] at hm
                rcases hm with hm | hm
                · exact ⟨g2, by simp [hm.1]⟩
                · obtain ⟨g, hg⟩ := ih hm
                  exact ⟨g, List.mem_cons_of_mem _ hg⟩
        obtain ⟨g', hg'⟩ := this _ hg
        exact ⟨g', pool', hp', hg'⟩
      · exact ⟨g, pool, by rw [← h2 p hs, hp], hg⟩

end Netlab
