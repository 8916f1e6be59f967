import Verif.Lemmas.PoolSystem
/-!
# C03, C04, C05: prefixes allocated from address pools
-/

namespace Netlab
open Spec

private theorem fresh_nodup {pools : Pools} (h : FreshPools pools) : PoolsNodup pools :=
  fun p pool hp => (h p pool hp).1

/-- The answers of one pool for one address family are the answers of one generator that
starts in its initial state. -/
private theorem fresh_run {pools pools' : Pools} {reqs} {log} (hf : FreshPools pools)
    (h : runRequests pools reqs = (log, pools')) {e} (he : e ∈ log) {p af s}
    (hs : HandsOut e p af s) :
    ∃ net plen ns g', AllocatesFrom pools p af net plen ∧ net.WF ∧ net.plen ≤ plen ∧
      plen ≤ net.w ∧
      (Gen.create p net plen).run ns = (log.filterMap (projEntry p af), g') := by
  obtain ⟨g, hg⟩ := handsOut_hasGen (fresh_nodup hf) h he hs
  obtain ⟨ns, g', hr⟩ := proj_run (fresh_nodup hf) hg h
  obtain ⟨pool, hp, hm⟩ := hg
  obtain ⟨h1, h2⟩ := hf p pool hp
  obtain ⟨a, b, c, d⟩ := h2 af g hm
  refine ⟨g.pool, g.plen, ns, g', ⟨pool, g, hp, lookup_of_mem h1 hm, rfl, rfl⟩, a, b, c, ?_⟩
  rw [← d]
  exact hr

/-- A pool hands out at most one prefix per address family in one answer, and the projection
used in the proofs finds it. -/
private theorem projEntry_handsOut {pools pools' : Pools} {reqs} {log} (hf : PoolsNodup pools)
    (h : runRequests pools reqs = (log, pools')) {e} (he : e ∈ log) {p af s}
    (hs : HandsOut e p af s) : projEntry p af e = some (e.1, some s) := by
  induction reqs generalizing pools log with
  | nil =>
    simp only [runRequests, Prod.mk.injEq] at h
    obtain ⟨rfl, rfl⟩ := h
    simp at he
  | cons r rs ih =>
    obtain ⟨pl, n⟩ := r
    simp only [runRequests] at h
    rcases hgp : getPrefix pools pl n with ⟨sel, pfx, pools1, e1⟩
    rcases hrr : runRequests pools1 rs with ⟨log1, pools2⟩
    simp only [hgp, hrr, Prod.mk.injEq] at h
    obtain ⟨rfl, rfl⟩ := h
    obtain ⟨h1, h2, h3⟩ := getPrefix_step hf hgp
    rcases List.mem_cons.1 he with rfl | he
    · obtain ⟨ha, hb⟩ := hs
      have ha : sel = some p := ha
      obtain ⟨pool, hp, rfl, -⟩ := h3 p ha
      obtain ⟨g, hg⟩ := poolPrefix_net_gen n pool hb
      obtain ⟨-, q2⟩ := poolPrefix_gen n pool (hf p pool hp) hg
      subst ha
      rw [projEntry_eq (hf p pool hp) hg, (q2 _).1 hb]
    · exact ih h1 hrr he

private theorem pairwise_of_run {pools pools' : Pools} {reqs} {log} (hf : FreshPools pools)
    (h : runRequests pools reqs = (log, pools')) :
    log.Pairwise (fun a b => ∀ p af s t, HandsOut a p af s → HandsOut b p af t →
      (a.1 ≠ 0 → a.1 = b.1 → s = t) ∧ (a.1 = 0 ∨ a.1 ≠ b.1 → Spec.Disjoint s t)) := by
  rw [List.pairwise_iff_getElem]
  intro i j hi hj hij p af s t hs ht
  obtain ⟨net, plen, ns, g', -, -, -, -, hr⟩ := fresh_run hf h (List.getElem_mem hi) hs
  have hp := Gen.run_pairwise (Gen.create_inv p net plen) hr
  rw [List.pairwise_filterMap, List.pairwise_iff_getElem] at hp
  have := hp i j hi hj hij _ (projEntry_handsOut (fresh_nodup hf) h (List.getElem_mem hi) hs) _
    (projEntry_handsOut (fresh_nodup hf) h (List.getElem_mem hj) ht)
  exact this s t rfl rfl

/-- **C03 (shape).**  In any history of requests to any set of pools, every prefix handed out
has the length configured for the pool, is a valid prefix, and lies inside the pool. -/
theorem C03_length_and_containment (pools pools' : Pools) (reqs : List (List String × Nat))
    (log : List (Nat × Option String × List (String × PfxEntry))) (hf : FreshPools pools)
    (h : runRequests pools reqs = (log, pools'))
    (e : Nat × Option String × List (String × PfxEntry)) (he : e ∈ log) (p af : String) (s : Net)
    (hs : HandsOut e p af s) :
    ∃ net plen, AllocatesFrom pools p af net plen ∧ s.plen = plen ∧ s.w = net.w ∧ s.WF ∧
      Inside s net := by
  obtain ⟨net, plen, ns, g', h1, h2, h3, h4, hr⟩ := fresh_run hf h he hs
  obtain ⟨-, -, -, ext, i1, -, i3, i4⟩ := Gen.run_inv (Gen.create_inv p net plen) hr
  have hmem : (e.1, some s) ∈ log.filterMap (projEntry p af) :=
    List.mem_filterMap.2 ⟨e, he, projEntry_handsOut (fresh_nodup hf) h he hs⟩
  have key : ∃ k, k < net.numSubnets plen ∧ s = net.subnet plen k := by
    have hpl : g'.pool = net ∧ g'.plen = plen := by
      obtain ⟨a, b, -⟩ := Gen.run_inv (Gen.create_inv p net plen) hr
      exact ⟨a, b⟩
    have hb := i1.bound
    rw [hpl.1, hpl.2] at hb
    by_cases h0 : e.1 = 0
    · rw [h0] at hmem
      obtain ⟨k, -, k2, -, k4⟩ := i4 s hmem
      exact ⟨k, by omega, k4⟩
    · obtain ⟨k, k1, k2⟩ := i3 e.1 s hmem h0
      have := i1.below k (List.mem_of_getElem? k1)
      exact ⟨k, by omega, k2⟩
  obtain ⟨k, hk, rfl⟩ := key
  exact ⟨net, plen, h1, rfl, rfl, subnet_wf h2 h3 h4 hk, subnet_inside h3 h4 hk⟩

/-- **C03 (no overlap).**  A prefix handed out by a sequential request (index 0) does not
overlap with any prefix handed out later by the same pool, whatever the later request. -/
theorem C03_sequential_disjoint (pools pools' : Pools) (reqs : List (List String × Nat))
    (log : List (Nat × Option String × List (String × PfxEntry))) (hf : FreshPools pools)
    (h : runRequests pools reqs = (log, pools')) :
    log.Pairwise (fun a b => ∀ p af s t, HandsOut a p af s → HandsOut b p af t → a.1 = 0 →
      Spec.Disjoint s t) :=
  (pairwise_of_run hf h).imp (fun hr p af s t h1 h2 h0 => (hr p af s t h1 h2).2 (.inl h0))

/-- **C04 (stability).**  Two requests for the same index return the same prefix, whatever
happened in between. -/
theorem C04_same_index_same_prefix (pools pools' : Pools) (reqs : List (List String × Nat))
    (log : List (Nat × Option String × List (String × PfxEntry))) (hf : FreshPools pools)
    (h : runRequests pools reqs = (log, pools')) :
    log.Pairwise (fun a b => ∀ p af s t, HandsOut a p af s → HandsOut b p af t → a.1 ≠ 0 →
      a.1 = b.1 → s = t) :=
  (pairwise_of_run hf h).imp (fun hr p af s t h1 h2 h0 h3 => (hr p af s t h1 h2).1 h0 h3)

/-- **C04 (separation).**  Requests for different indices, and by-index and sequential
requests in either order, return disjoint prefixes. -/
theorem C04_different_requests_disjoint (pools pools' : Pools) (reqs : List (List String × Nat))
    (log : List (Nat × Option String × List (String × PfxEntry))) (hf : FreshPools pools)
    (h : runRequests pools reqs = (log, pools')) :
    log.Pairwise (fun a b => ∀ p af s t, HandsOut a p af s → HandsOut b p af t → a.1 ≠ b.1 →
      Spec.Disjoint s t) :=
  (pairwise_of_run hf h).imp (fun hr p af s t h1 h2 h0 => (hr p af s t h1 h2).2 (.inr h0))

/-- **C03 (exact sequence and exhaustion).**  A pool that only sees sequential requests hands
out all of its subnets in increasing order (without the first one when it is skipped) and
reports an error for every later request. -/
theorem C03_sequence_and_exhaustion (pname : String) (net : Net) (plen m i : Nat) (hi : i < m) :
    let g := Gen.create pname net plen
    ((g.run (List.replicate m 0)).1)[i]? =
      some (0, if g.pos + i < 2 ^ (plen - net.plen)
               then some (net.subnet plen (g.pos + i)) else none) := by
  have gen : ∀ (m i : Nat) (g : Gen), i < m → g.pos ≤ g.pool.numSubnets g.plen →
      ((g.run (List.replicate m 0)).1)[i]? =
        some (0, if g.pos + i < g.pool.numSubnets g.plen
                 then some (g.pool.subnet g.plen (g.pos + i)) else none) := by
    intro m
    induction m with
    | zero => intro i g hi; omega
    | succ m ih =>
      intro i g hi hb
      simp only [List.replicate_succ, Gen.run, Gen.request, if_true, Gen.next?]
      by_cases hp : g.pos < g.pool.numSubnets g.plen
      · simp only [hp, if_true]
        cases i with
        | zero => simp [hp]
        | succ i =>
          have := ih i { g with pos := g.pos + 1 } (by omega) hp
          simp only [List.getElem?_cons_succ, this, Option.some.injEq, Prod.mk.injEq, true_and]
          have e : g.pos + 1 + i = g.pos + (i + 1) := by omega
          simp only [e]
      · simp only [hp, if_false]
        cases i with
        | zero => simp [hp]
        | succ i =>
          have := ih i g (by omega) hb
          simp only [List.getElem?_cons_succ, this, Option.some.injEq, Prod.mk.injEq, true_and]
          rw [if_neg (by omega), if_neg (by omega)]
  exact gen m i (Gen.create pname net plen) hi (Gen.create_inv pname net plen).bound

/-- **C03 (no prefix after exhaustion).**  Once a sequential request failed, every later
sequential request to the same generator fails: nothing is handed out twice by wrapping
around. -/
theorem C03_exhausted_forever (pname : String) (net : Net) (plen : Nat) (ns : List Nat)
    (log : List (Nat × Option Net)) (g' : Gen)
    (h : (Gen.create pname net plen).run ns = (log, g')) :
    log.Pairwise (fun a b => a = (0, none) → b.1 = 0 → b.2 = none) := by
  have gen : ∀ (ns : List Nat) (g : Gen) (cp : List Nat) log g', g.Inv cp →
      g.run ns = (log, g') → log.Pairwise (fun a b => a = (0, none) → b.1 = 0 → b.2 = none) := by
    intro ns
    induction ns with
    | nil =>
      intro g cp log g' hi h
      simp only [Gen.run, Prod.mk.injEq] at h
      obtain ⟨rfl, rfl⟩ := h
      exact List.Pairwise.nil
    | cons n ns ih =>
      intro g cp log g' hi h
      simp only [Gen.run] at h
      rcases hr : g.request n with ⟨o, g1⟩
      rcases hr2 : g1.run ns with ⟨log1, g2⟩
      simp only [hr, hr2, Prod.mk.injEq] at h
      obtain ⟨rfl, rfl⟩ := h
      obtain ⟨a1, a2, a3, ext, a4, a5, a6, a7, a8⟩ := Gen.request_inv hi hr
      refine List.pairwise_cons.2 ⟨?_, ih g1 _ log1 g2 a4 hr2⟩
      rintro ⟨m, t⟩ hm h0 hm0
      cases h0
      simp only at hm0
      subst hm0
      obtain ⟨rfl, ⟨-, hbad, -⟩ | ⟨hfull, -, rfl⟩⟩ := a6 rfl
      · cases hbad
      cases t with
      | none => rfl
      | some s =>
        obtain ⟨-, -, -, ext2, i1, -, -, i4⟩ := Gen.run_inv a4 hr2
        obtain ⟨b1, b2, -⟩ := Gen.run_inv a4 hr2
        obtain ⟨k, k1, k2, -⟩ := i4 s hm
        have := i1.bound
        rw [b1, b2] at this
        omega
  exact gen ns _ [] log g' (Gen.create_inv pname net plen) h

/-- The pool dictionary has a pool with this name. -/
def PoolExists (pools : Pools) (p : String) : Prop := p ∈ pools.map (·.1)

private theorem any_iff_exists (pools : Pools) (p : String) :
    pools.any (fun kv => kv.1 == p) = true ↔ PoolExists pools p := by
  simp [PoolExists, List.any_eq_true]

/-- **C05 (selection).**  A request with a non-empty pool list is served by the first pool of
the list that exists. -/
theorem C05_first_existing_pool (pools : Pools) (pl : List String) (n : Nat) (p : String)
    (hne : pl ≠ []) :
    (getPrefix pools pl n).1 = some p ↔
      ∃ before after, pl = before ++ p :: after ∧ PoolExists pools p ∧
        ∀ q ∈ before, ¬ PoolExists pools q := by
  have hpl : pl.isEmpty = false := by cases pl <;> simp_all
  have gen : ∀ pl : List String, getPool pools pl = some p ↔
      ∃ before after, pl = before ++ p :: after ∧ PoolExists pools p ∧
        ∀ q ∈ before, ¬ PoolExists pools q := by
    intro pl
    induction pl with
    | nil => simp [getPool]
    | cons q qs ih =>
      simp only [getPool]
      by_cases hq : pools.any (fun kv => kv.1 == q) = true
      · rw [if_pos hq]
        have hq' := (any_iff_exists pools q).1 hq
        constructor
        · rintro h
          cases h
          exact ⟨[], qs, rfl, hq', by simp⟩
        · rintro ⟨before, after, h1, h2, h3⟩
          cases before with
          | nil => simp at h1; rw [h1.1]
          | cons b bs =>
            simp only [List.cons_append, List.cons.injEq] at h1
            exact absurd (h1.1 ▸ hq') (h3 b (by simp))
      · rw [if_neg hq, ih]
        have hq' := fun h => hq ((any_iff_exists pools q).2 h)
        constructor
        · rintro ⟨before, after, rfl, h2, h3⟩
          refine ⟨q :: before, after, rfl, h2, ?_⟩
          intro x hx
          rcases List.mem_cons.1 hx with rfl | hx
          · exact hq'
          · exact h3 x hx
        · rintro ⟨before, after, h1, h2, h3⟩
          cases before with
          | nil =>
            simp only [List.nil_append, List.cons.injEq] at h1
            exact absurd (h1.1 ▸ h2) hq'
          | cons b bs =>
            simp only [List.cons_append, List.cons.injEq] at h1
            exact ⟨bs, after, h1.2, h2, fun x hx => h3 x (by simp [hx])⟩
  rw [← gen pl]
  simp only [getPrefix, hpl, Bool.false_eq_true, if_false]
  cases getPool pools pl <;> simp

/-- **C05 (error).**  When no pool of a non-empty list exists, an error is reported, no prefix
is returned and the pools do not change. -/
theorem C05_no_pool_is_an_error (pools : Pools) (pl : List String) (n : Nat) (hne : pl ≠ [])
    (h : ∀ q ∈ pl, ¬ PoolExists pools q) :
    getPrefix pools pl n = (none, [], pools, 1) := by
  have hpl : pl.isEmpty = false := by cases pl <;> simp_all
  have gen : ∀ pl : List String, (∀ q ∈ pl, ¬ PoolExists pools q) → getPool pools pl = none := by
    intro pl
    induction pl with
    | nil => intro _; rfl
    | cons q qs ih =>
      intro h
      simp only [getPool]
      rw [if_neg (fun hq => h q (by simp) ((any_iff_exists pools q).1 hq))]
      exact ih (fun x hx => h x (by simp [hx]))
  simp [getPrefix, hpl, gen pl h]

/-- **C05 (isolation).**  A request changes no pool except the selected one. -/
theorem C05_other_pools_untouched (pools : Pools) (pl : List String) (n : Nat) (q : String)
    (h : (getPrefix pools pl n).1 ≠ some q) :
    (getPrefix pools pl n).2.2.1.lookup q = pools.lookup q := by
  simp only [getPrefix] at *
  cases hg : getPool pools (if pl.isEmpty = true then ["lan"] else pl) with
  | none => rfl
  | some p =>
    rw [hg] at h
    simp only
    exact lookup_setPool_ne _ _ _ _ (fun e => h (by simp [e]))

/-! ### Concrete cases -/

/-- 10.0.0.0/29 split into /31 prefixes, and an IPv6 pool. -/
def samplePools : Pools :=
  [("lan", [("ipv4", .gen (Gen.create "lan" ⟨32, 167772160, 29⟩ 31)),
            ("allocation", .attr (.str "sequential"))]),
   ("loopback", [("ipv4", .gen (Gen.create "loopback" ⟨32, 167774208, 24⟩ 32))])]

example : FreshPools samplePools := by
  intro p pool h
  have hm := mem_of_lookup h
  simp only [samplePools, List.mem_cons, Prod.mk.injEq, List.not_mem_nil, or_false] at hm
  rcases hm with ⟨rfl, rfl⟩ | ⟨rfl, rfl⟩
  · refine ⟨by decide, ?_⟩
    intro af g hg
    simp only [List.mem_cons, Prod.mk.injEq, PoolEntry.gen.injEq, reduceCtorEq, and_false,
      List.not_mem_nil, or_false] at hg
    obtain ⟨-, rfl⟩ := hg
    refine ⟨⟨by decide, by decide, by decide⟩, by decide, by decide, rfl⟩
  · refine ⟨by decide, ?_⟩
    intro af g hg
    simp only [List.mem_cons, Prod.mk.injEq, PoolEntry.gen.injEq,
      List.not_mem_nil, or_false] at hg
    obtain ⟨-, rfl⟩ := hg
    refine ⟨⟨by decide, by decide, by decide⟩, by decide, by decide, rfl⟩

/-- Sequential, by-index, sequential and repeated by-index requests. -/
example :
    (Gen.create "lan" ⟨32, 167772160, 29⟩ 31).run [0, 2, 0, 1, 2, 0] =
      ([(0, some ⟨32, 167772160, 31⟩), (2, some ⟨32, 167772164, 31⟩),
        (0, some ⟨32, 167772166, 31⟩), (1, some ⟨32, 167772162, 31⟩),
        (2, some ⟨32, 167772164, 31⟩), (0, none)],
       ⟨⟨32, 167772160, 29⟩, 31, 4, [⟨32, 167772162, 31⟩, ⟨32, 167772164, 31⟩]⟩) := by
  decide

example : (getPrefix samplePools ["nopool", "loopback", "lan"] 1).1 = some "loopback" := by
  decide

end Netlab
